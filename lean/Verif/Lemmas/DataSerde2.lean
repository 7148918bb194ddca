import Verif.Lemmas.DataSerde

/-!
# The records of ordinary input data, and what is read from them
-/

namespace Verif.DataSerde.Lemmas

open Verif.DataSerde Verif.DataSerde.Spec Verif.Calendar

/-! ## Reading from many records -/

theorem mapE_append {α β : Type} {f : α → Except Err β} {l₁ l₂ : List α} {b₁ b₂ : List β}
    (h₁ : mapE f l₁ = .ok b₁) (h₂ : mapE f l₂ = .ok b₂) : mapE f (l₁ ++ l₂) = .ok (b₁ ++ b₂) := by
  induction l₁ generalizing b₁ with
  | nil => cases h₁; exact h₂
  | cons a l ih =>
    simp only [mapE] at h₁
    cases hf : f a with
    | error e => rw [hf] at h₁; cases h₁
    | ok b =>
      rw [hf] at h₁
      cases hl : mapE f l with
      | error e => rw [hl] at h₁; cases h₁
      | ok bs =>
        rw [hl] at h₁
        cases h₁
        simp only [List.cons_append, mapE, hf, ih hl]

/-- The records for geos and times. -/
def grid (geos mt : List String) (P : String → String → Point) : List Point :=
  geos.flatMap fun g => mt.map fun t => P g t

theorem mapE_grid {β : Type} {f : Point → Except Err (List β)} {geos mt : List String}
    {P : String → String → Point} {w : String → String → List β} {extra : List Point}
    (h : ∀ g ∈ geos, ∀ t ∈ mt, f (P g t) = .ok (w g t)) (he : ∀ p ∈ extra, f p = .ok []) :
    ∃ l, mapE f (grid geos mt P ++ extra) = .ok l ∧
      l.flatten = geos.flatMap fun g => mt.flatMap fun t => w g t := by
  have h1 : ∃ l, mapE f (grid geos mt P) = .ok l ∧
      l.flatten = geos.flatMap fun g => mt.flatMap fun t => w g t := by
    clear he
    induction geos with
    | nil => exact ⟨[], rfl, rfl⟩
    | cons g geos ih =>
      obtain ⟨l, hl, hf⟩ := ih fun g hg => h g (by simp [hg])
      have hg : mapE f (mt.map fun t => P g t) = .ok (mt.map fun t => w g t) := by
        have h' := h g (by simp)
        clear h hl hf ih
        induction mt with
        | nil => rfl
        | cons t mt ih =>
          simp only [List.map_cons, mapE, h' t (by simp), ih fun t ht => h' t (by simp [ht])]
      refine ⟨_, mapE_append hg hl, ?_⟩
      rw [List.flatten_append, hf, List.flatMap_cons]
      congr 1
  have h2 : mapE f extra = .ok (extra.map fun _ => ([] : List β)) := mapE_ok he
  obtain ⟨l, hl, hf⟩ := h1
  refine ⟨_, mapE_append hl h2, ?_⟩
  rw [List.flatten_append, hf]
  have : (extra.map fun _ => ([] : List β)).flatten = [] := by
    rw [List.flatten_eq_nil_iff]
    intro x hx
    obtain ⟨_, _, rfl⟩ := List.mem_map.1 hx
    rfl
  rw [this, List.append_nil]

theorem gather3_grid {f : Point → Except Err (List Rec3)} {geos mt ts keys : List String}
    {P : String → String → Point} {v : String → String → String → Num} {extra : List Point}
    (hg : geos.Nodup) (hm : mt.Nodup) (hk : keys.Nodup) (ng : geos ≠ []) (nt : ts ≠ [])
    (nk : keys ≠ []) (hs : ts.Sublist mt)
    (h : ∀ g ∈ geos, ∀ t ∈ mt, f (P g t) =
      .ok (if t ∈ ts then keys.map fun k => (g, t, k, v g t k) else []))
    (he : ∀ p ∈ extra, f p = .ok []) :
    gather3 f (grid geos mt P ++ extra) = .ok (some ⟨geos, ts, keys,
      geos.map fun g => ts.map fun t => keys.map fun k => v g t k⟩) := by
  obtain ⟨l, hl, hf⟩ := mapE_grid h he
  unfold gather3
  rw [hl]
  show Except.ok (extract3 l.flatten) = _
  rw [hf]
  congr 1
  have : (geos.flatMap fun g => mt.flatMap fun t =>
      if t ∈ ts then keys.map fun k => (g, t, k, v g t k) else []) = cells3 geos ts keys v := by
    unfold cells3
    congr 1
    funext g
    exact flatMap_if hs hm fun t => keys.map fun k => (g, t, k, v g t k)
  rw [this]
  exact extract3_cells hg (hs.nodup hm) hk ng nt nk

theorem gather2_grid {f : Point → Except Err (List Rec2)} {geos mt ts : List String}
    {P : String → String → Point} {v : String → String → Num} {extra : List Point}
    (hg : geos.Nodup) (hm : mt.Nodup) (ng : geos ≠ []) (nt : ts ≠ []) (hs : ts.Sublist mt)
    (h : ∀ g ∈ geos, ∀ t ∈ mt, f (P g t) = .ok (if t ∈ ts then [(g, t, v g t)] else []))
    (he : ∀ p ∈ extra, f p = .ok []) :
    gather2 f (grid geos mt P ++ extra) = .ok (some ⟨geos, ts,
      geos.map fun g => ts.map fun t => v g t⟩) := by
  obtain ⟨l, hl, hf⟩ := mapE_grid h he
  unfold gather2
  rw [hl]
  show Except.ok (extract2 l.flatten) = _
  rw [hf]
  congr 1
  have : (geos.flatMap fun g => mt.flatMap fun t =>
      if t ∈ ts then [(g, t, v g t)] else []) = cells2 geos ts v := by
    unfold cells2
    congr 1
    funext g
    rw [flatMap_if hs hm fun t => [(g, t, v g t)]]
    exact List.map_eq_flatMap.symm
  rw [this]
  exact extract2_cells hg (hs.nodup hm) ng nt

theorem gather3_none {f : Point → Except Err (List Rec3)} {ps : List Point}
    (h : ∀ p ∈ ps, f p = .ok []) : gather3 f ps = .ok none := by
  unfold gather3
  rw [mapE_ok h]
  show Except.ok (extract3 (ps.map fun _ => ([] : List Rec3)).flatten) = _
  have : (ps.map fun _ => ([] : List Rec3)).flatten = [] := by
    rw [List.flatten_eq_nil_iff]
    intro x hx
    obtain ⟨_, _, rfl⟩ := List.mem_map.1 hx
    rfl
  rw [this]
  rfl

theorem gather2_none {f : Point → Except Err (List Rec2)} {ps : List Point}
    (h : ∀ p ∈ ps, f p = .ok []) : gather2 f ps = .ok none := by
  unfold gather2
  rw [mapE_ok h]
  show Except.ok (extract2 (ps.map fun _ => ([] : List Rec2)).flatten) = _
  have : (ps.map fun _ => ([] : List Rec2)).flatten = [] := by
    rw [List.flatten_eq_nil_iff]
    intro x hx
    obtain ⟨_, _, rfl⟩ := List.mem_map.1 hx
    rfl
  rw [this]
  rfl

/-! ## Intervals -/

theorem dateIntervals_ok {cal : Cal} {mt : List String} {dates : List CDate}
    (hw : dates.map cal.fmt = mt) (hn : mt.Nodup) (ha : Axis dates) :
    ∃ ivs, dateIntervals cal dates = .ok ivs ∧ ivs ≠ [] ∧
      ∀ t ∈ mt, ∃ i, get t ivs = some i ∧ cal.fmt i.start = t := by
  have hr := isRegular_of_axis ha
  have hc : TimeCoordinates.create dates = .ok dates := by
    unfold TimeCoordinates.create
    rw [if_neg (by have := ha.two; omega), if_neg]
    rw [not_not]
    refine (TimeCoordinates.nonDecreasing_iff ha.valid).2 ?_
    exact ha.increasing.imp fun h => le_of_lt h
  obtain ⟨bs, hb⟩ := TimeCoordinates.boundsLoop_ok (sel := dates) hr
  have hp : TimeCoordinates.getPeriodBounds dates none = .ok bs := by
    unfold TimeCoordinates.getPeriodBounds
    rw [if_neg (by rw [not_not]; exact hr)]
    show (if dates.length < 2 then _ else _) = _
    rw [if_neg (by have := ha.two; omega)]
    exact hb
  have hf := (TimeCoordinates.boundsLoop_spec hb).1
  have hkeys : bs.map (fun b => cal.fmt b.1) = mt := by
    rw [← hw, ← hf, List.map_map]; rfl
  have hfold : bs.foldl (fun acc b => put (cal.fmt b.1) (⟨b.1, b.2⟩ : Interval) acc) [] =
      bs.map fun b => (cal.fmt b.1, (⟨b.1, b.2⟩ : Interval)) := by
    rw [foldl_put (key := fun b : CDate × ℤ => cal.fmt b.1)
      (val := fun b => (⟨b.1, b.2⟩ : Interval)) bs [] (by simpa [hkeys] using hn)]
    rfl
  refine ⟨bs.map fun b => (cal.fmt b.1, (⟨b.1, b.2⟩ : Interval)), ?_, ?_, ?_⟩
  · unfold dateIntervals
    rw [hc]
    simp only
    rw [hp]
    simp only
    rw [hfold]
  · intro h
    rw [List.map_eq_nil_iff] at h
    subst h
    rw [← hf] at ha
    exact absurd ha.two (by simp)
  · intro t ht
    rw [← hkeys] at ht
    obtain ⟨b, hb, rfl⟩ := List.mem_map.1 ht
    refine ⟨⟨b.1, b.2⟩, ?_, rfl⟩
    exact get_map (key := fun b : CDate × ℤ => cal.fmt b.1)
      (val := fun b => (⟨b.1, b.2⟩ : Interval)) hb (by rw [hkeys]; exact hn)

/-! ## The records -/

/-- Values of controls or treatments in a record. -/
def pEntries (a : Option Arr3) (g t : String) : List (String × Num) :=
  match a with
  | none => []
  | some a => if t ∈ a.times then a.keys.map fun k => (k, cell3 a g t k) else []

/-- Spend in a record. -/
def pSpend (s : Option Arr3) (g t k : String) : Option Num :=
  match s with
  | none => none
  | some s => if t ∈ s.times then some (cell3 s g t k) else none

/-- Media in a record. -/
def pMedia (a s : Option Arr3) (g t : String) : List MediaVar :=
  match a with
  | none => []
  | some a => a.keys.map fun k => ⟨k, cell3 a g t k, pSpend s g t k⟩

/-- Reach and frequency in a record. -/
def pRf (a f s : Option Arr3) (g t : String) : List RfVar :=
  match a, f with
  | some a, some f => a.keys.map fun k =>
      ⟨k, truncInt ((cell3 a g t k).getD 0), cell3 f g t k, pSpend s g t k⟩
  | _, _ => []

/-- Revenue per KPI in a record. -/
def pRevenue (a : Option Arr2) (g t : String) : Option Num := a.map fun a => cell2 a g t

/-- KPI in a record, given its time is one of the times. -/
def pKpiOf (d : Data) (g t : String) : Kpi :=
  match d.kpiType with
  | .revenue => .revenue (cell2 d.kpi g t)
  | .nonRevenue => .nonRevenue (cell2 d.kpi g t) (pRevenue d.revenuePerKpi g t)

/-- KPI in a record. -/
def pKpi (d : Data) (g t : String) : Option Kpi :=
  if t ∈ d.kpi.times then some (pKpiOf d g t) else none

/-- A record. -/
def pPoint (d : Data) (ivs : List (String × Interval)) (g t : String) : Point where
  geo := some (g, at' d.population.keys d.population.vals none g)
  interval := get t ivs
  controls := pEntries d.controls g t
  media := pMedia d.media (granular d.mediaSpend) g t ++ pMedia d.organicMedia none g t
  rf := pRf d.reach d.frequency (granular d.rfSpend) g t ++
    pRf d.organicReach d.organicFrequency none g t
  nonMedia := pEntries d.nonMedia g t
  kpi := pKpi d g t

section Points

variable {cal : Cal} {mt : List String} {dates : List CDate} {d : Data} {g t k : String}

theorem mt_nodup (h : Ordinary cal mt dates d) : mt.Nodup := by
  have h1 : dates.Nodup := h.axis.increasing.imp fun {a b} hab => by
    rintro rfl; exact absurd hab (lt_irrefl _)
  have h2 : (mt.map cal.parse).Nodup := by
    rw [h.parsed]; exact h1.map (Option.some_injective _)
  exact List.Nodup.of_map _ h2

theorem entriesAt_ok {a : Option Arr3} {gs ts : List String} (ha : ∀ b ∈ a, Shape3 gs ts b)
    (hg : gs.Nodup) (ht : ts.Nodup) (mg : g ∈ gs) : entriesAt a g t = .ok (pEntries a g t) := by
  cases a with
  | none => rfl
  | some a =>
    have hs := ha a rfl
    simp only [entriesAt, pEntries]
    by_cases hm : t ∈ a.times
    · rw [if_pos hm, if_pos hm]
      exact entries_ok hs hg ht mg (by rw [← hs.times]; exact hm)
    · rw [if_neg hm, if_neg hm]

theorem spendOf_ok {s : Option Arr3} {gs ts ks : List String}
    (hs : ∀ b ∈ s, Shape3 gs ts b ∧ b.keys = ks) (hg : gs.Nodup) (ht : ts.Nodup) (mg : g ∈ gs)
    (mk : k ∈ ks) : spendOf s g t k = .ok (pSpend s g t k) := by
  cases s with
  | none => rfl
  | some s =>
    obtain ⟨h1, h2⟩ := hs s rfl
    simp only [spendOf, pSpend]
    by_cases hm : t ∈ s.times
    · rw [if_pos hm, if_pos hm, cell_ok h1 hg ht mg (by rw [← h1.times]; exact hm)
        (by rw [h2]; exact mk)]
      rfl
    · rw [if_neg hm, if_neg hm]

theorem mediaAt_ok {a s : Option Arr3} {gs ms ts : List String} (ha : ∀ b ∈ a, Shape3 gs ms b)
    (hs : ∀ b ∈ s, Shape3 gs ts b ∧ b.keys = names a) (hg : gs.Nodup) (hm : ms.Nodup)
    (ht : ts.Nodup) (mg : g ∈ gs) (mm : t ∈ ms) : mediaAt a s g t = .ok (pMedia a s g t) := by
  cases a with
  | none => rfl
  | some a =>
    simp only [mediaAt, mediaVars, pMedia]
    rw [entries_ok (ha a rfl) hg hm mg mm]
    simp only
    rw [mapE_ok (g := fun e => (⟨e.1, e.2, pSpend s g t e.1⟩ : MediaVar))]
    · rw [List.map_map]; rfl
    · intro e he
      obtain ⟨k, hk, rfl⟩ := List.mem_map.1 he
      rw [spendOf_ok hs hg ht mg (by exact hk)]

theorem rfAt_ok {a f s : Option Arr3} {gs ms ts : List String}
    (ha : ∀ b ∈ a, Shape3 gs ms b ∧ Numbers b) (hf : ∀ b ∈ f, Shape3 gs ms b)
    (hn : names a = names f) (hs : ∀ b ∈ s, Shape3 gs ts b ∧ b.keys = names a) (hg : gs.Nodup)
    (hm : ms.Nodup) (ht : ts.Nodup) (mg : g ∈ gs) (mm : t ∈ ms) :
    rfAt a f s g t = .ok (pRf a f s g t) := by
  cases a with
  | none => cases f <;> rfl
  | some a =>
    cases f with
    | none => rfl
    | some f =>
      have hk' : a.keys = f.keys := hn
      simp only [rfAt, rfVars, pRf]
      rw [entries_ok (ha a rfl).1 hg hm mg mm]
      simp only
      rw [mapE_ok (g := fun e => (⟨e.1, truncInt (e.2.getD 0), cell3 f g t e.1,
        pSpend s g t e.1⟩ : RfVar))]
      · rw [List.map_map]; rfl
      · intro e he
        obtain ⟨k, hk, rfl⟩ := List.mem_map.1 he
        have hv : ∃ q, cell3 a g t k = some q := by
          obtain ⟨r, hr, c, hc, hv⟩ := cell_mem (ha a rfl).1 mg mm hk
          exact Option.ne_none_iff_exists'.1 ((ha a rfl).2 r hr c hc _ hv)
        obtain ⟨q, hq⟩ := hv
        unfold rfVar
        rw [hq]
        simp only [toInt]
        rw [cell_ok (hf f rfl) hg hm mg mm (by rw [← hk']; exact hk),
          spendOf_ok hs hg ht mg (by exact hk)]
        rfl

theorem kpiAt_ok (h : Ordinary cal mt dates d) (mg : g ∈ d.kpi.geos) :
    kpiAt d g t = .ok (pKpi d g t) := by
  have hn := h.times.2.nodup (mt_nodup h)
  unfold kpiAt pKpi
  by_cases hm : t ∈ d.kpi.times
  · rw [if_pos hm, if_pos hm]
    have : makeKpi d g t = .ok (pKpiOf d g t) := by
      unfold makeKpi pKpiOf
      rw [cell2_ok h.kpi h.geos.2.1 hn mg hm]
      cases hkt : d.kpiType with
      | revenue => rfl
      | nonRevenue =>
        have hr : revenueAt d.revenuePerKpi g t = .ok (pRevenue d.revenuePerKpi g t) := by
          cases hr : d.revenuePerKpi with
          | none => rfl
          | some r =>
            simp only [revenueAt]
            rw [cell2_ok (h.revenue r hr) h.geos.2.1 hn mg hm]
            rfl
        simp only
        rw [hr]
    rw [this]
    rfl
  · rw [if_neg hm, if_neg hm]

theorem granular_media (h : Ordinary cal mt dates d) : ∀ b ∈ granular d.mediaSpend,
    Shape3 d.kpi.geos d.kpi.times b ∧ b.keys = names d.media := by
  intro b hb
  cases hs : d.mediaSpend with
  | none => rw [hs] at hb; cases hb
  | some s =>
    cases s with
    | aggregated s => rw [hs] at hb; cases hb
    | granular s =>
      rw [hs] at hb
      cases hb
      obtain ⟨a, h1, h2⟩ := h.mediaSpend _ hs
      rw [h1]
      exact h2

theorem granular_rf (h : Ordinary cal mt dates d) : ∀ b ∈ granular d.rfSpend,
    Shape3 d.kpi.geos d.kpi.times b ∧ b.keys = names d.reach := by
  intro b hb
  cases hs : d.rfSpend with
  | none => rw [hs] at hb; cases hb
  | some s =>
    cases s with
    | aggregated s => rw [hs] at hb; cases hb
    | granular s =>
      rw [hs] at hb
      cases hb
      obtain ⟨a, h1, h2⟩ := h.rfSpend _ hs
      rw [h1]
      exact h2

theorem point_ok (h : Ordinary cal mt dates d) (ivs : List (String × Interval))
    (mg : g ∈ d.kpi.geos) (mm : t ∈ mt) : point d ivs g t = .ok (pPoint d ivs g t) := by
  have hg := h.geos.2.1
  have hm := mt_nodup h
  have hn := h.times.2.nodup hm
  have e1 : sel d.population.keys d.population.vals g =
      .ok (at' d.population.keys d.population.vals none g) :=
    sel_ok none (by rw [h.population.2, h.population.1]) (by rw [h.population.1]; exact hg)
      (by rw [h.population.1]; exact mg)
  unfold point
  rw [e1, entriesAt_ok h.controls hg hn mg, mediaAt_ok h.media (granular_media h) hg hm hn mg mm,
    rfAt_ok h.reach h.frequency h.pairs.2 (granular_rf h) hg hm hn mg mm,
    mediaAt_ok (ts := []) h.organicMedia (by simp) hg hm (by simp) mg mm,
    rfAt_ok (ts := []) h.organicReach h.organicFrequency h.organicPairs.2 (by simp) hg hm (by simp)
      mg mm,
    entriesAt_ok h.nonMedia hg hn mg, kpiAt_ok h mg]
  rfl

theorem mediaTime_ok (h : Ordinary cal mt dates d) : mediaTime d = .ok mt := by
  unfold mediaTime
  cases hm : d.media with
  | some m =>
    simp only
    rw [(h.media m hm).times]
  | none =>
    cases hr : d.reach with
    | some r =>
      simp only
      rw [(h.reach r hr).1.times]
    | none =>
      rcases h.paid with h | h
      · exact absurd hm h
      · exact absurd hr h

theorem parse_some (h : Ordinary cal mt dates d) (mm : t ∈ mt) : ∃ x, cal.parse t = some x := by
  have : cal.parse t ∈ dates.map some := by
    rw [← h.parsed]; exact List.mem_map.2 ⟨t, mm, rfl⟩
  obtain ⟨x, -, hx⟩ := List.mem_map.1 this
  exact ⟨x, hx.symm⟩

theorem parseAll_some {ts : List String} {ds : List CDate} (h : ts.map cal.parse = ds.map some) :
    parseAll cal ts = .ok ds := by
  unfold parseAll
  induction ts generalizing ds with
  | nil =>
    cases ds with
    | nil => rfl
    | cons a l => cases h
  | cons t ts ih =>
    cases ds with
    | nil => cases h
    | cons a l =>
      rw [List.map_cons, List.map_cons, List.cons.injEq] at h
      simp only [mapE, h.1, ih h.2]

theorem parseAll_times (h : Ordinary cal mt dates d) : ∃ ds, parseAll cal d.kpi.times = .ok ds := by
  have : ∀ t ∈ d.kpi.times, ∃ x, cal.parse t = some x :=
    fun t ht => parse_some h (h.times.2.subset ht)
  refine ⟨d.kpi.times.map fun t => (cal.parse t).getD ⟨0, 0, 0⟩, parseAll_some ?_⟩
  rw [List.map_map]
  refine List.map_congr_left fun t ht => ?_
  obtain ⟨x, hx⟩ := this t ht
  simp [hx]

/-- Saving succeeds, and these are the records. -/
theorem save_ok (h : Ordinary cal mt dates d) : ∃ ivs ds,
    dateIntervals cal dates = .ok ivs ∧ ivs ≠ [] ∧
    (∀ t ∈ mt, ∃ i, get t ivs = some i ∧ cal.fmt i.start = t) ∧
    save cal d = .ok ⟨grid d.kpi.geos mt (pPoint d ivs) ++ mediaSpendPoint d.mediaSpend ivs ++
      rfSpendPoint d.rfSpend ivs, metadata d ds dates⟩ := by
  obtain ⟨ivs, hi, hne, hget⟩ := dateIntervals_ok h.written (mt_nodup h) h.axis
  obtain ⟨ds, hds⟩ := parseAll_times h
  refine ⟨ivs, ds, hi, hne, hget, ?_⟩
  have hp : mapE (fun p => point d ivs p.1 p.2)
      (d.kpi.geos.flatMap fun g => mt.map fun t => (g, t)) =
      .ok (grid d.kpi.geos mt (pPoint d ivs)) := by
    rw [mapE_ok (g := fun p => pPoint d ivs p.1 p.2)]
    · congr 1
      unfold grid
      rw [List.map_flatMap]
      congr 1
      funext g
      rw [List.map_map]
      rfl
    · intro p hp
      obtain ⟨g, mg, hp⟩ := List.mem_flatMap.1 hp
      obtain ⟨t, mm, rfl⟩ := List.mem_map.1 hp
      exact point_ok h ivs mg mm
  unfold save
  simp only [mediaTime_ok h, parseAll_some h.parsed, hi, hp, hds, bind, Except.bind, pure, Except.pure]

end Points

end Verif.DataSerde.Lemmas

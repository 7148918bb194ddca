import Mathlib.Data.List.Pairwise
import Mathlib.Data.List.Nodup
import Verif.Props.Builder
import Verif.Spec.DataFrame

/-!
# Loading a data frame
-/

namespace Verif.DataFrame.Props

open Verif Verif.Builder Verif.Builder.Props Verif.DataFrame Verif.DataFrame.Spec

/-! ## Helpers -/

theorem bind_ok {α β : Type} {x : Except Err α} {f : α → Except Err β} {y : β} :
    (x >>= f) = .ok y ↔ ∃ a, x = .ok a ∧ f a = .ok y := by
  cases x with
  | error e => simp [bind, Except.bind]
  | ok a => simp [bind, Except.bind]

theorem mem_labels {l : List String} {x : String} : x ∈ labels l ↔ x ∈ l := by
  rw [labels, (sorted_perm _).mem_iff, List.mem_dedup]

theorem labels_perm {l l' : List String} (h : l.Perm l') : labels l = labels l' := by
  have h1 : (sorted l.dedup).Perm (sorted l'.dedup) :=
    (sorted_perm _).trans (h.dedup.trans (sorted_perm _).symm)
  exact List.Perm.eq_of_pairwise (le := (· ≤ ·)) (fun _ _ _ _ h1 h2 => le_antisymm h1 h2)
    (sorted_sorted _) (sorted_sorted _) h1

theorem sorted_congr {l l' : List String} (h : l.Perm l') : sorted l = sorted l' :=
  List.Perm.eq_of_pairwise (le := (· ≤ ·)) (fun _ _ _ _ h1 h2 => le_antisymm h1 h2)
    (sorted_sorted _) (sorted_sorted _) ((sorted_perm _).trans (h.trans (sorted_perm _).symm))

/-- No geo has two rows for the same time. -/
def Unique (rows : List Row) : Prop := ∀ g, (timesOf rows g).Nodup

theorem validTimes_unique {rows : List Row} (h : validTimes rows = .ok ()) : Unique rows := by
  unfold validTimes at h
  simp only at h
  split_ifs at h with h1 h2
  intro g
  by_cases hg : g ∈ labels (rows.map Row.geo)
  · simp only [List.all_eq_true, decide_eq_true_eq] at h1
    exact h1 g hg
  · have : timesOf rows g = [] := by
      rw [mem_labels] at hg
      simp only [timesOf, List.map_eq_nil_iff, List.filter_eq_nil_iff, decide_eq_true_eq]
      intro r hr e
      exact hg (List.mem_map.2 ⟨r, hr, e⟩)
    rw [this]; exact List.nodup_nil

theorem cellAt_eq {rows : List Row} (hu : Unique rows) {r : Row} (hr : r ∈ rows) (col : String) :
    cellAt rows r.geo r.time col = r.cell col := by
  unfold cellAt
  cases hf : rows.find? fun x => decide (x.geo = r.geo ∧ x.time = r.time) with
  | none =>
    rw [List.find?_eq_none] at hf
    exact absurd (by simp) (hf r hr)
  | some r' =>
    have h1 := List.find?_some hf
    have h2 := List.mem_of_find?_eq_some hf
    simp only [decide_eq_true_eq] at h1
    have h3 := hu r.geo
    have : r' = r := List.inj_on_of_nodup_map h3 (by simp [h2, h1.1]) (by simp [hr]) h1.2
    rw [this]

theorem cellAt_some {rows : List Row} {g t col : String} {v : ℚ} (h : cellAt rows g t col = some v) :
    ∃ r ∈ rows, r.geo = g ∧ r.time = t ∧ r.cell col = some v := by
  unfold cellAt at h
  cases hf : rows.find? fun x => decide (x.geo = g ∧ x.time = t) with
  | none => rw [hf] at h; cases h
  | some r' =>
    rw [hf] at h
    have h1 := List.find?_some hf
    simp only [decide_eq_true_eq] at h1
    exact ⟨r', List.mem_of_find?_eq_some hf, h1.1, h1.2, h⟩

theorem timesOf_perm {rows rows' : List Row} (h : rows.Perm rows') (g : String) :
    (timesOf rows g).Perm (timesOf rows' g) := (h.filter _).map _

theorem cellAt_perm {rows rows' : List Row} (h : rows.Perm rows') (hu : Unique rows)
    (g t col : String) : cellAt rows g t col = cellAt rows' g t col := by
  have hu' : Unique rows' := fun g => (timesOf_perm h g).nodup_iff.1 (hu g)
  cases h1 : rows.find? fun x => decide (x.geo = g ∧ x.time = t) with
  | none =>
    have h2 : rows'.find? (fun x => decide (x.geo = g ∧ x.time = t)) = none := by
      rw [List.find?_eq_none] at h1 ⊢
      exact fun x hx => h1 x (h.mem_iff.2 hx)
    simp only [cellAt, h1, h2]
  | some r =>
    have hp := List.find?_some h1
    have hm := List.mem_of_find?_eq_some h1
    simp only [decide_eq_true_eq] at hp
    obtain ⟨rfl, rfl⟩ := hp
    rw [cellAt_eq hu hm, cellAt_eq hu' (h.mem_iff.1 hm)]

theorem filled_perm {rows rows' : List Row} (h : rows.Perm rows') (cols : List (String × String)) :
    (filled rows cols).Perm (filled rows' cols) := h.filter _

theorem usedCols_perm {rows rows' : List Row} (h : rows.Perm rows') (cols : List (String × String)) :
    usedCols rows cols = usedCols rows' cols := by
  unfold usedCols
  congr 1
  funext c
  rw [Bool.eq_iff_iff]
  simp only [List.any_eq_true, h.mem_iff]

theorem pivot_perm {rows rows' : List Row} (h : rows.Perm rows') (hu : Unique rows)
    (cols : List (String × String)) : pivot rows cols = pivot rows' cols := by
  have h1 : labels ((filled rows cols).map Row.geo) = labels ((filled rows' cols).map Row.geo) :=
    labels_perm ((filled_perm h cols).map _)
  have h2 : labels ((filled rows cols).map Row.time) = labels ((filled rows' cols).map Row.time) :=
    labels_perm ((filled_perm h cols).map _)
  simp only [pivot, h1, h2, usedCols_perm h cols, cellAt_perm h hu]

theorem validTimes_perm {rows rows' : List Row} (h : rows.Perm rows') :
    validTimes rows = validTimes rows' := by
  have h1 : labels (rows.map Row.geo) = labels (rows'.map Row.geo) := labels_perm (h.map _)
  have h2 : ∀ g, (timesOf rows g).Nodup ↔ (timesOf rows' g).Nodup :=
    fun g => (timesOf_perm h g).nodup_iff
  have h3 : ∀ g, sorted (timesOf rows g) = sorted (timesOf rows' g) :=
    fun g => sorted_congr (timesOf_perm h g)
  simp only [validTimes, h1, h2, h3]

theorem filterMap_sum_perm {l l' : List Num} (h : l.Perm l') : nanMean l = nanMean l' := by
  have h1 : (l.filterMap id).Perm (l'.filterMap id) := h.filterMap _
  unfold nanMean
  simp only [h1.sum_eq, h1.length_eq]
  congr 1
  simp only [List.isEmpty_iff, eq_iff_iff]
  exact ⟨fun e => List.perm_nil.1 (e ▸ h1.symm), fun e => List.perm_nil.1 (e ▸ h1)⟩

theorem population_perm {rows rows' : List Row} (h : rows.Perm rows') (col : String) :
    population rows col = population rows' col := by
  have h1 : labels (rows.map Row.geo) = labels (rows'.map Row.geo) := labels_perm (h.map _)
  have h2 : ∀ g, nanMean ((rows.filter fun r => decide (r.geo = g)).map fun r => r.cell col) =
      nanMean ((rows'.filter fun r => decide (r.geo = g)).map fun r => r.cell col) :=
    fun g => filterMap_sum_perm ((h.filter _).map _)
  simp only [population, h1, h2]

/-- The rows with their geo, after the rows were reordered. -/
theorem withGeo_perm {f : Frame} {rows : List Row} (h : f.rows.Perm rows) (geoCol : String) :
    (withGeo f geoCol).Perm (withGeo { f with rows := rows } geoCol) := by
  unfold withGeo
  split_ifs
  · exact h
  · exact h.map _

/-! ## The order of the rows -/

theorem bind_congr' {α β : Type} {x y : Except Err α} {f g : α → Except Err β} (h : x = y)
    (hfg : ∀ a, y = .ok a → f a = g a) : (x >>= f) = (y >>= g) := by
  subst h
  cases x with
  | error e => rfl
  | ok a => exact hfg a rfl

/-- The result does not depend on the order of the rows. -/
theorem row_order_irrelevant {κ : Type} [LE κ] [DecidableRel (α := κ) (· ≤ ·)] (env : Env κ)
    (L : Loader) {rows : List Row} (h : L.df.rows.Perm rows) :
    load env { L with df := { L.df with rows := rows } } = load env L := by
  have hw := withGeo_perm (f := L.df) h L.cols.geo
  have hv := validTimes_perm hw
  have key : parts { L with df := { L.df with rows := rows } } = parts L := by
    unfold parts
    refine bind_congr' rfl fun _ _ => bind_congr' rfl fun _ _ => ?_
    by_cases hu : Unique (withGeo L.df L.cols.geo)
    · have hp : ∀ cols, pivot (withGeo { L.df with rows := rows } L.cols.geo) cols =
          pivot (withGeo L.df L.cols.geo) cols := fun cols => (pivot_perm hw hu cols).symm
      have hpop : ∀ col, population (withGeo { L.df with rows := rows } L.cols.geo) col =
          population (withGeo L.df L.cols.geo) col := fun col => (population_perm hw col).symm
      refine bind_congr' ?_ fun _ _ => bind_congr' ?_ fun _ _ => bind_congr' ?_ fun _ _ =>
        bind_congr' ?_ fun _ _ => bind_congr' ?_ fun _ _ => bind_congr' ?_ fun _ _ =>
        bind_congr' ?_ fun _ _ => bind_congr' ?_ fun _ _ => bind_congr' ?_ fun _ _ => rfl
      · simp only [kpiPart, validCols, ← hv, hp]
      · simp only [populationPart, validCols, hpop]
      · simp only [plainPart, validCols, ← hv, hp]
      · simp only [plainPart, validCols, ← hv, hp]
      · unfold revenuePart
        simp only
        cases L.cols.revenuePerKpi with
        | none => rfl
        | some col =>
          simp only [validCols, ← hv]
          refine if_congr Iff.rfl rfl (bind_congr' rfl fun _ _ => bind_congr' rfl fun _ _ => ?_)
          rw [pivot_perm (hw.map _)]
          intro g
          have : timesOf ((withGeo L.df L.cols.geo).map fun r =>
              if L.isRevenue then { r with cell := fun c => if c = col then some 1 else r.cell c }
              else r) g = timesOf (withGeo L.df L.cols.geo) g := by
            unfold timesOf
            rw [List.filter_map, List.map_map]
            have e1 : ((fun r : Row => decide (r.geo = g)) ∘ fun r : Row =>
                if L.isRevenue then { r with cell := fun c => if c = col then some 1 else r.cell c }
                else r) = fun r => decide (r.geo = g) := by
              funext r; simp only [Function.comp]; split_ifs <;> rfl
            have e2 : (Row.time ∘ fun r : Row =>
                if L.isRevenue then { r with cell := fun c => if c = col then some 1 else r.cell c }
                else r) = Row.time := by
              funext r; simp only [Function.comp]; split_ifs <;> rfl
            rw [e1, e2]
          rw [this]
          exact hu g
      · simp only [mediaPart, validCols, ← hv, hp]
      · simp only [rfPart, validCols, ← hv, hp]
      · simp only [plainPart, validCols, ← hv, hp]
      · simp only [organicPart, validCols, ← hv, hp]
    · have hk : ∀ L' : Loader, (∀ _ : validTimes (withGeo L'.df L'.cols.geo) = .ok (), False) →
          ∃ e, kpiPart L' = .error e := by
        intro L' hno
        cases hk : kpiPart L' with
        | error e => exact ⟨e, rfl⟩
        | ok l =>
          unfold kpiPart at hk
          obtain ⟨_, -, hk⟩ := bind_ok.1 hk
          obtain ⟨_, h2, hk⟩ := bind_ok.1 hk
          exact (hno h2).elim
      have e1 : kpiPart { L with df := { L.df with rows := rows } } = kpiPart L := by
        have hno : ∀ _ : validTimes (withGeo L.df L.cols.geo) = .ok (), False :=
          fun h => hu (validTimes_unique h)
        simp only [kpiPart, validCols, ← hv]
        refine bind_congr' rfl fun _ _ => bind_congr' rfl fun _ h => (hno h).elim
      obtain ⟨e, he⟩ := hk L fun h => hu (validTimes_unique h)
      rw [e1, he]
      rfl
  simp only [load, key]

/-! ## The values -/

/-- The columns and channels listed by a mapping. -/
theorem channelsOf_zip {d : Dict} {l : List String} {names : List String}
    (h : channelsOf d (some l) = .ok names) :
    l.zip names = mapped (some l) (some d) ∧ names.length = l.length := by
  unfold channelsOf at h
  simp only at h
  simp only [mapped]
  induction l generalizing names with
  | nil =>
    simp only [List.mapM_nil] at h
    cases h
    exact ⟨rfl, rfl⟩
  | cons c l ih =>
    rw [List.mapM_cons] at h
    obtain ⟨ch, h1, h⟩ := bind_ok.1 h
    obtain ⟨rest, h2, h⟩ := bind_ok.1 h
    cases h
    cases hl : d.lookup c with
    | none => rw [hl] at h1; cases h1
    | some x =>
      rw [hl] at h1; cases h1
      obtain ⟨i1, i2⟩ := ih h2
      simp [hl, i1, i2]

theorem mapped_none (o : Option (List String)) : mapped o none = [] := by
  cases o <;> rfl

/-- The rows from which a component is read. -/
def rowsFor (L : Loader) (c : Comp) : List Row :=
  if c = .revenuePerKpi ∧ L.isRevenue = true then
    (withGeo L.df L.cols.geo).map fun r =>
      { r with cell := fun x => if some x = L.cols.revenuePerKpi then some 1 else r.cell x }
  else withGeo L.df L.cols.geo

/-- The components of a list are those expected. -/
def Expected (L : Loader) (cs : List Comp) (l : List (Comp × DA)) : Prop :=
  (∀ c ∈ cs, columnsOf L c ≠ [] → (c, pivot (rowsFor L c) (columnsOf L c)) ∈ l) ∧
    ∀ x ∈ l, x.1 ∈ cs ∧ columnsOf L x.1 ≠ [] ∧ x.2 = pivot (rowsFor L x.1) (columnsOf L x.1)

theorem expected_append {L : Loader} {cs cs' : List Comp} {l l' : List (Comp × DA)}
    (h : Expected L cs l) (h' : Expected L cs' l') : Expected L (cs ++ cs') (l ++ l') := by
  refine ⟨?_, ?_⟩
  · intro c hc hn
    rcases List.mem_append.1 hc with hc | hc
    · exact List.mem_append.2 (Or.inl (h.1 c hc hn))
    · exact List.mem_append.2 (Or.inr (h'.1 c hc hn))
  · intro x hx
    rcases List.mem_append.1 hx with hx | hx
    · obtain ⟨a, b, c⟩ := h.2 x hx
      exact ⟨List.mem_append.2 (Or.inl a), b, c⟩
    · obtain ⟨a, b, c⟩ := h'.2 x hx
      exact ⟨List.mem_append.2 (Or.inr a), b, c⟩

theorem expected_one {L : Loader} {c : Comp} (h : columnsOf L c ≠ []) :
    Expected L [c] [(c, pivot (rowsFor L c) (columnsOf L c))] := by
  refine ⟨?_, ?_⟩
  · intro c' hc' _
    rw [List.mem_singleton] at hc'
    subst hc'
    exact List.mem_singleton.2 rfl
  · intro x hx
    rw [List.mem_singleton] at hx
    subst hx
    exact ⟨List.mem_singleton.2 rfl, h, rfl⟩

theorem expected_nil {L : Loader} {cs : List Comp} (h : ∀ c ∈ cs, columnsOf L c = []) :
    Expected L cs [] := ⟨fun c hc hn => absurd (h c hc) hn, fun x hx => by cases hx⟩

theorem rowsFor_eq {L : Loader} {c : Comp} (hc : c ≠ .revenuePerKpi) :
    rowsFor L c = withGeo L.df L.cols.geo := by
  simp [rowsFor, hc]

theorem kpi_expected {L : Loader} {l : List (Comp × DA)} (h : kpiPart L = .ok l) :
    Expected L [.kpi] l ∧ Unique (withGeo L.df L.cols.geo) := by
  unfold kpiPart at h
  obtain ⟨_, -, h⟩ := bind_ok.1 h
  obtain ⟨_, h2, h⟩ := bind_ok.1 h
  cases h
  exact ⟨by simpa [rowsFor, columnsOf] using expected_one (L := L) (c := .kpi) (by simp [columnsOf]),
    validTimes_unique h2⟩

theorem plain_expected {L : Loader} {c : Comp} {cols : Option (List String)} {l : List (Comp × DA)}
    (h : plainPart L c cols = .ok l) (hc : c ≠ .revenuePerKpi) (hcols : columnsOf L c = plain cols) :
    Expected L [c] l := by
  unfold plainPart at h
  cases cols with
  | none =>
    cases h
    exact expected_nil (by simp [hcols, plain])
  | some m =>
    simp only at h
    split_ifs at h with h0 h1
    · cases h
      have : m = [] := by simpa using h0
      subst this
      exact expected_nil (by simp [hcols, plain])
    all_goals
      obtain ⟨_, -, h⟩ := bind_ok.1 h
      obtain ⟨_, -, h⟩ := bind_ok.1 h
      obtain ⟨_, -, h⟩ := bind_ok.1 h
      cases h
      have := expected_one (L := L) (c := c) (by simpa [hcols, plain] using h0)
      rw [rowsFor_eq hc, hcols] at this
      exact this

theorem revenue_expected {L : Loader} {l : List (Comp × DA)} (h : revenuePart L = .ok l)
    (hne : L.cols.check = .ok ()) : Expected L [.revenuePerKpi] l := by
  unfold revenuePart at h
  cases hr : L.cols.revenuePerKpi with
  | none =>
    rw [hr] at h
    cases h
    exact expected_nil (by simp [columnsOf, hr])
  | some col =>
    rw [hr] at h
    simp only at h
    by_cases h0 : col = ""
    · subst h0
      unfold Columns.check at hne
      rw [hr] at hne
      split_ifs at hne with a b
      simp at b
    · rw [if_neg h0] at h
      obtain ⟨_, -, h⟩ := bind_ok.1 h
      obtain ⟨_, -, h⟩ := bind_ok.1 h
      cases h
      have := expected_one (L := L) (c := .revenuePerKpi) (by simp [columnsOf, hr])
      have e : rowsFor L .revenuePerKpi = (withGeo L.df L.cols.geo).map fun r =>
          if L.isRevenue then { r with cell := fun c => if c = col then some 1 else r.cell c }
          else r := by
        unfold rowsFor
        by_cases hi : L.isRevenue = true
        · simp [hi, hr]
        · simp [hi]
      have e' : columnsOf L .revenuePerKpi = [(col, "revenue_per_kpi")] := by simp [columnsOf, hr]
      rw [e, e'] at this
      exact this

/-- What the checks of the loader say about two mappings. -/
theorem checkPair_names {c1 c2 : Option (List String)} {d1 d2 : Dict} {names : List String}
    (h : checkPair c1 c2 (some d1) (some d2) = .ok ()) (h1 : channelsOf d1 c1 = .ok names) :
    channelsOf d2 c2 = .ok names := by
  unfold checkPair at h
  simp only at h
  split_ifs at h with a
  obtain ⟨n1, e1, h⟩ := bind_ok.1 h
  obtain ⟨n2, e2, h⟩ := bind_ok.1 h
  split_ifs at h with b
  rw [h1] at e1
  cases e1
  rw [e2, ← not_not.1 b]

theorem checkTriple_names {c1 c2 c3 : Option (List String)} {d1 d2 d3 : Dict} {names : List String}
    (h : checkTriple c1 c2 c3 (some d1) (some d2) (some d3) = .ok ())
    (h1 : channelsOf d1 c1 = .ok names) :
    channelsOf d2 c2 = .ok names ∧ channelsOf d3 c3 = .ok names := by
  unfold checkTriple at h
  simp only at h
  split_ifs at h with a
  obtain ⟨n1, e1, h⟩ := bind_ok.1 h
  obtain ⟨n2, e2, h⟩ := bind_ok.1 h
  obtain ⟨n3, e3, h⟩ := bind_ok.1 h
  split_ifs at h with b
  rw [h1] at e1
  cases e1
  obtain ⟨rfl, rfl⟩ := b
  exact ⟨e2, e3⟩

theorem zip_ne_nil {a b : List String} (ha : a.isEmpty = false) (hb : b.length = a.length) :
    a.zip b ≠ [] := by
  cases a with
  | nil => cases ha
  | cons x a =>
    cases b with
    | nil => cases hb
    | cons y b => simp

theorem media_expected {L : Loader} {l : List (Comp × DA)} (h : mediaPart L = .ok l)
    (hp : checkPair L.cols.media L.cols.mediaSpend L.media L.mediaSpend = .ok ()) :
    Expected L [.media, .mediaSpend] l := by
  unfold mediaPart at h
  cases hm : L.media with
  | none =>
    rw [hm] at h; cases h
    refine expected_nil ?_
    intro c hc
    simp only [List.mem_cons, List.not_mem_nil, or_false] at hc
    rcases hc with rfl | rfl
    · simp only [columnsOf, hm, mapped_none, ite_self]
    · simp [columnsOf, hm]
  | some d =>
    cases hs : L.mediaSpend with
    | none =>
      rw [hm, hs] at h; cases h
      refine expected_nil ?_
      intro c hc
      simp only [List.mem_cons, List.not_mem_nil, or_false] at hc
      rcases hc with rfl | rfl
      · simp [columnsOf, hs]
      · simp only [columnsOf, hs, mapped_none, ite_self]
    | some d' =>
      rw [hm, hs] at h hp
      simp only at h
      obtain ⟨names, h1, h⟩ := bind_ok.1 h
      have h2 := checkPair_names hp h1
      cases hcm : L.cols.media with
      | none => rw [hcm] at h1; cases h1
      | some m =>
        cases hcs : L.cols.mediaSpend with
        | none => rw [hcs] at h2; cases h2
        | some s =>
          rw [hcm] at h1; rw [hcs] at h2
          rw [hcm, hcs] at h
          simp only at h
          split_ifs at h with h0
          obtain ⟨_, -, h⟩ := bind_ok.1 h
          obtain ⟨_, -, h⟩ := bind_ok.1 h
          obtain ⟨_, -, h⟩ := bind_ok.1 h
          obtain ⟨_, -, h⟩ := bind_ok.1 h
          cases h
          simp only [Bool.or_eq_true, not_or, Bool.not_eq_true] at h0
          obtain ⟨z1, n1⟩ := channelsOf_zip h1
          obtain ⟨z2, n2⟩ := channelsOf_zip h2
          have e1 : columnsOf L .media = m.zip names := by simp [columnsOf, hs, hm, hcm, z1]
          have e2 : columnsOf L .mediaSpend = s.zip names := by simp [columnsOf, hs, hm, hcs, z2]
          have a1 := expected_one (L := L) (c := .media) (by rw [e1]; exact zip_ne_nil h0.1.1 n1)
          have a2 := expected_one (L := L) (c := .mediaSpend)
            (by rw [e2]; exact zip_ne_nil h0.1.2 n2)
          rw [rowsFor_eq (by decide), e1] at a1
          rw [rowsFor_eq (by decide), e2] at a2
          exact expected_append a1 a2

theorem organic_expected {L : Loader} {l : List (Comp × DA)} (h : organicPart L = .ok l)
    (hp : checkPair L.cols.organicReach L.cols.organicFrequency L.organicReach L.organicFrequency =
      .ok ()) :
    Expected L [.organicReach, .organicFrequency] l := by
  unfold organicPart at h
  cases hm : L.organicReach with
  | none =>
    rw [hm] at h; cases h
    refine expected_nil ?_
    intro c hc
    simp only [List.mem_cons, List.not_mem_nil, or_false] at hc
    rcases hc with rfl | rfl
    · simp only [columnsOf, hm, mapped_none, ite_self]
    · simp [columnsOf, hm]
  | some d =>
    cases hs : L.organicFrequency with
    | none =>
      rw [hm, hs] at h; cases h
      refine expected_nil ?_
      intro c hc
      simp only [List.mem_cons, List.not_mem_nil, or_false] at hc
      rcases hc with rfl | rfl
      · simp [columnsOf, hs]
      · simp only [columnsOf, hs, mapped_none, ite_self]
    | some d' =>
      rw [hm, hs] at h hp
      simp only at h
      obtain ⟨names, h1, h⟩ := bind_ok.1 h
      have h2 := checkPair_names hp h1
      cases hcm : L.cols.organicReach with
      | none => rw [hcm] at h1; cases h1
      | some m =>
        cases hcs : L.cols.organicFrequency with
        | none => rw [hcs] at h2; cases h2
        | some s =>
          rw [hcm] at h1; rw [hcs] at h2
          rw [hcm, hcs] at h
          simp only at h
          split_ifs at h with h0
          obtain ⟨_, -, h⟩ := bind_ok.1 h
          obtain ⟨_, -, h⟩ := bind_ok.1 h
          obtain ⟨_, -, h⟩ := bind_ok.1 h
          cases h
          simp only [Bool.or_eq_true, not_or, Bool.not_eq_true] at h0
          obtain ⟨z1, n1⟩ := channelsOf_zip h1
          obtain ⟨z2, n2⟩ := channelsOf_zip h2
          have e1 : columnsOf L .organicReach = m.zip names := by simp [columnsOf, hs, hm, hcm, z1]
          have e2 : columnsOf L .organicFrequency = s.zip names := by
            simp [columnsOf, hs, hm, hcs, z2]
          have a1 := expected_one (L := L) (c := .organicReach)
            (by rw [e1]; exact zip_ne_nil h0.1.1 n1)
          have a2 := expected_one (L := L) (c := .organicFrequency)
            (by rw [e2]; exact zip_ne_nil h0.1.2 n2)
          rw [rowsFor_eq (by decide), e1] at a1
          rw [rowsFor_eq (by decide), e2] at a2
          exact expected_append a1 a2

theorem rf_expected {L : Loader} {l : List (Comp × DA)} (h : rfPart L = .ok l)
    (hp : checkTriple L.cols.reach L.cols.frequency L.cols.rfSpend L.reach L.frequency L.rfSpend =
      .ok ()) :
    Expected L [.reach, .frequency, .rfSpend] l := by
  unfold rfPart at h
  by_cases hall : L.reach.isSome ∧ L.frequency.isSome ∧ L.rfSpend.isSome
  · obtain ⟨⟨d1, hr⟩, ⟨d2, hf⟩, ⟨d3, hs⟩⟩ :
        (∃ d, L.reach = some d) ∧ (∃ d, L.frequency = some d) ∧ ∃ d, L.rfSpend = some d := by
      simpa only [Option.isSome_iff_exists] using hall
    rw [hr, hf, hs] at h hp
    simp only at h
    obtain ⟨names, h1, h⟩ := bind_ok.1 h
    obtain ⟨h2, h3⟩ := checkTriple_names hp h1
    cases hcr : L.cols.reach with
    | none => rw [hcr] at h1; cases h1
    | some r =>
      cases hcf : L.cols.frequency with
      | none => rw [hcf] at h2; cases h2
      | some f =>
        cases hcs : L.cols.rfSpend with
        | none => rw [hcs] at h3; cases h3
        | some s =>
          rw [hcr] at h1; rw [hcf] at h2; rw [hcs] at h3
          rw [hcr, hcf, hcs] at h
          simp only at h
          split_ifs at h with h0
          obtain ⟨_, -, h⟩ := bind_ok.1 h
          obtain ⟨_, -, h⟩ := bind_ok.1 h
          obtain ⟨_, -, h⟩ := bind_ok.1 h
          cases h
          simp only [Bool.or_eq_true, not_or, Bool.not_eq_true] at h0
          obtain ⟨z1, n1⟩ := channelsOf_zip h1
          obtain ⟨z2, n2⟩ := channelsOf_zip h2
          obtain ⟨z3, n3⟩ := channelsOf_zip h3
          have e1 : columnsOf L .reach = r.zip names := by simp [columnsOf, hr, hf, hs, hcr, z1]
          have e2 : columnsOf L .frequency = f.zip names := by simp [columnsOf, hr, hf, hs, hcf, z2]
          have e3 : columnsOf L .rfSpend = s.zip names := by simp [columnsOf, hr, hf, hs, hcs, z3]
          have a1 := expected_one (L := L) (c := .reach) (by rw [e1]; exact zip_ne_nil h0.1.1.1 n1)
          have a2 := expected_one (L := L) (c := .frequency)
            (by rw [e2]; exact zip_ne_nil h0.1.1.2 n2)
          have a3 := expected_one (L := L) (c := .rfSpend) (by rw [e3]; exact zip_ne_nil h0.1.2 n3)
          rw [rowsFor_eq (by decide), e1] at a1
          rw [rowsFor_eq (by decide), e2] at a2
          rw [rowsFor_eq (by decide), e3] at a3
          exact expected_append a1 (expected_append a2 a3)
  · have hl : l = [] := by
      cases hr : L.reach <;> cases hf : L.frequency <;> cases hs : L.rfSpend <;>
        simp only [hr, hf, hs] at h <;> first | (cases h; rfl) | (simp [hr, hf, hs] at hall)
    subst hl
    refine expected_nil ?_
    intro c hc
    simp only [List.mem_cons, List.not_mem_nil, or_false] at hc
    have hn : ∀ {o : Option Dict}, ¬ o.isSome = true → o = none := by
      intro o ho; cases o <;> simp_all
    rcases hc with rfl | rfl | rfl
    · simp only [columnsOf]
      split_ifs with h1
      · rw [hn fun h2 => hall ⟨h2, h1⟩, mapped_none]
      · rfl
    · simp only [columnsOf]
      split_ifs with h1
      · rw [hn fun h2 => hall ⟨h1.1, h2, h1.2⟩, mapped_none]
      · rfl
    · simp only [columnsOf]
      split_ifs with h1
      · rw [hn fun h2 => hall ⟨h1.1, h1.2, h2⟩, mapped_none]
      · rfl

/-- The components that are read from columns. -/
def dataComps : List Comp :=
  [.kpi, .controls, .nonMedia, .revenuePerKpi, .media, .mediaSpend, .reach, .frequency, .rfSpend,
   .organicMedia, .organicReach, .organicFrequency]

theorem parts_spec {L : Loader} {l : List (Comp × DA)} (h : parts L = .ok l) :
    Unique (withGeo L.df L.cols.geo) ∧
    (∀ c, columnsOf L c ≠ [] → (c, pivot (rowsFor L c) (columnsOf L c)) ∈ l) ∧
    (∀ x ∈ l, x.1 ≠ .population → columnsOf L x.1 ≠ [] ∧
      x.2 = pivot (rowsFor L x.1) (columnsOf L x.1)) ∧
    ∀ x ∈ l, x.1 = .population →
      x.2 = population (withGeo L.df L.cols.geo) L.cols.population := by
  unfold parts at h
  obtain ⟨_, hc, h⟩ := bind_ok.1 h
  obtain ⟨_, hk, h⟩ := bind_ok.1 h
  unfold Loader.check at hk
  obtain ⟨_, -, hk⟩ := bind_ok.1 hk
  obtain ⟨_, -, hk⟩ := bind_ok.1 hk
  obtain ⟨_, -, hk⟩ := bind_ok.1 hk
  obtain ⟨_, -, hk⟩ := bind_ok.1 hk
  obtain ⟨_, -, hk⟩ := bind_ok.1 hk
  obtain ⟨_, -, hk⟩ := bind_ok.1 hk
  obtain ⟨_, -, hk⟩ := bind_ok.1 hk
  obtain ⟨_, k1, hk⟩ := bind_ok.1 hk
  obtain ⟨_, k2, k3⟩ := bind_ok.1 hk
  obtain ⟨a, ha, h⟩ := bind_ok.1 h
  obtain ⟨b, hb, h⟩ := bind_ok.1 h
  obtain ⟨c, hc', h⟩ := bind_ok.1 h
  obtain ⟨d, hd, h⟩ := bind_ok.1 h
  obtain ⟨e, he, h⟩ := bind_ok.1 h
  obtain ⟨f, hf, h⟩ := bind_ok.1 h
  obtain ⟨g, hg, h⟩ := bind_ok.1 h
  obtain ⟨i, hi, h⟩ := bind_ok.1 h
  obtain ⟨j, hj, h⟩ := bind_ok.1 h
  have hl : l = a ++ (b ++ (c ++ (d ++ (e ++ (f ++ (g ++ (i ++ j))))))) := by
    cases h; rfl
  obtain ⟨ea, hu⟩ := kpi_expected ha
  have ec := plain_expected hc' (by decide) rfl
  have ed := plain_expected hd (by decide) rfl
  have ee := revenue_expected he hc
  have ef := media_expected hf k1
  have eg := rf_expected hg k2
  have ei := plain_expected hi (by decide) rfl
  have ej := organic_expected hj k3
  have hbpop : ∀ x ∈ b, x.1 = .population ∧
      x.2 = population (withGeo L.df L.cols.geo) L.cols.population := by
    unfold populationPart at hb
    split_ifs at hb with hm
    · obtain ⟨_, -, hb⟩ := bind_ok.1 hb
      cases hb
      intro x hx
      rw [List.mem_singleton] at hx
      subst hx
      exact ⟨rfl, rfl⟩
    · cases hb
      intro x hx; cases hx
  have hall : Expected L dataComps (a ++ (c ++ (d ++ (e ++ (f ++ (g ++ (i ++ j))))))) :=
    expected_append ea (expected_append ec (expected_append ed (expected_append ee
      (expected_append ef (expected_append eg (expected_append ei ej))))))
  have hmem : ∀ x, x ∈ l ↔ x ∈ b ∨ x ∈ a ++ (c ++ (d ++ (e ++ (f ++ (g ++ (i ++ j)))))) := by
    intro x
    rw [hl]
    simp only [List.mem_append]
    tauto
  refine ⟨hu, ?_, ?_, ?_⟩
  · intro c0 hn
    rw [hmem]
    refine Or.inr (hall.1 c0 ?_ hn)
    cases c0 <;> first | decide | exact absurd rfl hn
  · intro x hx hp
    rcases (hmem x).1 hx with hx | hx
    · exact absurd (hbpop x hx).1 hp
    · exact (hall.2 x hx).2
  · intro x hx hp
    rcases (hmem x).1 hx with hx | hx
    · exact (hbpop x hx).2
    · have := (hall.2 x hx).1
      rw [hp] at this
      exact absurd this (by decide)

section values

variable {κ : Type} [LinearOrder κ]

theorem load_ok {env : Env κ} {L : Loader} {b : Comp → Option DA} (h : load env L = .ok b) :
    ∃ l, parts L = .ok l ∧ buildFrom env l = .ok b := by
  unfold load at h
  cases hp : parts L with
  | error e => rw [hp] at h; cases h
  | ok l =>
    rw [hp] at h
    simp only at h
    cases hb : buildFrom env l with
    | error e => rw [hb] at h; cases h
    | ok b' => rw [hb] at h; cases h; exact ⟨l, rfl, hb⟩

omit [LinearOrder κ] in
theorem kind_ne {L : Loader} {c : Comp} (h : columnsOf L c ≠ []) : c.kind ≠ .noTime := by
  cases c <;> first | decide | exact absurd rfl h

omit [LinearOrder κ] in
theorem getElem?_of_mem {α : Type} {l : List α} {x : α} (h : x ∈ l) : ∃ i : ℕ, l[i]? = some x := by
  obtain ⟨i, hi, rfl⟩ := List.getElem_of_mem h
  exact ⟨i, List.getElem?_eq_getElem hi⟩

omit [LinearOrder κ] in
theorem unique_rowsFor {L : Loader} (h : Unique (withGeo L.df L.cols.geo)) (c : Comp) :
    Unique (rowsFor L c) := by
  unfold rowsFor
  split_ifs with hc
  · intro g
    have : timesOf ((withGeo L.df L.cols.geo).map fun r =>
        { r with cell := fun x => if some x = L.cols.revenuePerKpi then some 1 else r.cell x }) g =
        timesOf (withGeo L.df L.cols.geo) g := by
      unfold timesOf
      rw [List.filter_map, List.map_map]
      rfl
    rw [this]; exact h g
  · exact h

omit [LinearOrder κ] in
/-- A value of the pivot table. -/
theorem pivot_holds {rows : List Row} (hu : Unique rows) {cols : List (String × String)}
    {r : Row} (hr : r ∈ rows) {cc : String × String} (hc : cc ∈ cols) {v : ℚ}
    (hv : r.cell cc.1 = some v) :
    ∃ i j k : ℕ, (pivot rows cols).geos[i]? = some r.geo ∧ (pivot rows cols).times[j]? = some r.time ∧
      (pivot rows cols).channels[k]? = some cc.2 ∧ (pivot rows cols).vals i j k = some v := by
  have hf : r ∈ filled rows cols := by
    simp only [filled, List.mem_filter, List.any_eq_true]
    exact ⟨hr, cc, hc, by rw [hv]; rfl⟩
  have hcu : cc ∈ usedCols rows cols := by
    simp only [usedCols, List.mem_filter, List.any_eq_true]
    exact ⟨hc, r, hr, by rw [hv]; rfl⟩
  obtain ⟨i, hi⟩ := getElem?_of_mem (mem_labels.2 (List.mem_map.2 ⟨r, hf, rfl⟩) :
    r.geo ∈ labels ((filled rows cols).map Row.geo))
  obtain ⟨j, hj⟩ := getElem?_of_mem (mem_labels.2 (List.mem_map.2 ⟨r, hf, rfl⟩) :
    r.time ∈ labels ((filled rows cols).map Row.time))
  obtain ⟨k, hk⟩ := getElem?_of_mem hcu
  refine ⟨i, j, k, hi, hj, ?_, ?_⟩
  · simp [pivot, hk]
  · simp only [pivot, hi, hj, hk]
    rw [cellAt_eq hu hr, hv]

/-- The array of a component that is read from columns. -/
theorem load_comp {env : Env κ} {L : Loader} {b : Comp → Option DA} (h : load env L = .ok b)
    {c : Comp} (hc : columnsOf L c ≠ []) :
    ∃ d, b c = some d ∧ Builder.Spec.SameValues true (pivot (rowsFor L c) (columnsOf L c)) d := by
  obtain ⟨l, hl, hb⟩ := load_ok h
  obtain ⟨-, h1, -, -⟩ := parts_spec hl
  obtain ⟨d, hd, hs⟩ := (values_kept env hb).1 _ (h1 c hc) fun e => by
    simp only at e
    subst e
    exact absurd rfl hc
  have hk : decide (c.kind ≠ .noTime) = true := by simpa using kind_ne hc
  rw [hk] at hs
  exact ⟨d, hd, hs⟩

theorem holds_of_pivot {rows : List Row} (hu : Unique rows) {cols : List (String × String)} {d : DA}
    (hs : Builder.Spec.SameValues true (pivot rows cols) d) {r : Row} (hr : r ∈ rows)
    {cc : String × String} (hc : cc ∈ cols) {v : ℚ} (hv : r.cell cc.1 = some v) :
    Holds d r.geo r.time cc.2 v := by
  obtain ⟨i', j', k, h1, h2, h3, h4⟩ := pivot_holds hu hr hc hv
  have hname : ∃ name, GeoName d r.geo name ∧ (normGeos (pivot rows cols).geos)[i']? = some name := by
    unfold normGeos
    split_ifs with h5
    · refine ⟨nationalGeo, Or.inr ⟨rfl, fun x hx => ?_⟩, ?_⟩
      · have := (hs.geos x).1 hx
        simpa [normGeos, h5] using this
      · have : i' < 1 := h5 ▸ (List.getElem?_eq_some_iff.1 h1).1
        have : i' = 0 := by omega
        subst this
        rfl
    · exact ⟨r.geo, Or.inl rfl, h1⟩
  obtain ⟨name, hn1, hn2⟩ := hname
  obtain ⟨i, hi⟩ := getElem?_of_mem ((hs.geos name).2 (List.mem_of_getElem? hn2))
  obtain ⟨j, hj⟩ := getElem?_of_mem ((hs.times rfl r.time).2 (List.mem_of_getElem? h2))
  refine ⟨i, j, k, name, hn1, hi, hj, by rw [hs.channels]; exact h3, ?_⟩
  rw [hs.value i i' j j' k name r.time hi hn2 (by simp [hj, h2]), h4]

/-- Every number in the data frame ends up under its geo, its time and the channel its column is
mapped to. -/
theorem cell_kept {env : Env κ} {L : Loader} {b : Comp → Option DA} (h : load env L = .ok b)
    {c : Comp} {col channel : String} (hc : (col, channel) ∈ columnsOf L c)
    (hrev : ¬ (c = .revenuePerKpi ∧ L.isRevenue = true))
    {r : Row} (hr : r ∈ withGeo L.df L.cols.geo) {v : ℚ} (hv : r.cell col = some v) :
    ∃ d, b c = some d ∧ Holds d r.geo r.time channel v := by
  obtain ⟨l, hl, -⟩ := load_ok h
  obtain ⟨d, hd, hs⟩ := load_comp h (List.ne_nil_of_mem hc)
  have e : rowsFor L c = withGeo L.df L.cols.geo := by simp [rowsFor, hrev]
  rw [e] at hs
  exact ⟨d, hd, holds_of_pivot (parts_spec hl).1 hs hr hc hv⟩

/-- The revenue per KPI of a KPI that is revenue is one. -/
theorem revenue_is_one {env : Env κ} {L : Loader} {b : Comp → Option DA} (h : load env L = .ok b)
    (hrev : L.isRevenue = true) {col : String} (hcol : L.cols.revenuePerKpi = some col)
    {r : Row} (hr : r ∈ withGeo L.df L.cols.geo) :
    ∃ d, b .revenuePerKpi = some d ∧ Holds d r.geo r.time "revenue_per_kpi" 1 := by
  obtain ⟨l, hl, -⟩ := load_ok h
  have hc : (col, "revenue_per_kpi") ∈ columnsOf L .revenuePerKpi := by simp [columnsOf, hcol]
  obtain ⟨d, hd, hs⟩ := load_comp h (List.ne_nil_of_mem hc)
  refine ⟨d, hd, ?_⟩
  have hu := unique_rowsFor (parts_spec hl).1 .revenuePerKpi
  have hmem : ({ r with cell := fun x => if some x = L.cols.revenuePerKpi then some 1 else r.cell x } :
      Row) ∈ rowsFor L .revenuePerKpi := by
    simp only [rowsFor, hrev, and_self, if_true]
    exact List.mem_map.2 ⟨r, hr, rfl⟩
  exact holds_of_pivot hu hs hmem hc (by simp [hcol])

/-- Every number in the result comes from the data frame. -/
theorem cell_from_frame {env : Env κ} {L : Loader} {b : Comp → Option DA} (h : load env L = .ok b)
    {c : Comp} {d : DA} (hd : b c = some d) (hpop : c ≠ .population)
    (hrev : ¬ (c = .revenuePerKpi ∧ L.isRevenue = true))
    {i j k : ℕ} {g t channel : String} {v : ℚ} (hi : d.geos[i]? = some g) (hj : d.times[j]? = some t)
    (hk : d.channels[k]? = some channel) (hv : d.vals i j k = some v) :
    ∃ r ∈ withGeo L.df L.cols.geo, ∃ col, (col, channel) ∈ columnsOf L c ∧ GeoName d r.geo g ∧
      r.time = t ∧ r.cell col = some v := by
  obtain ⟨l, hl, hb⟩ := load_ok h
  obtain ⟨-, -, h3, -⟩ := parts_spec hl
  have hcne : columnsOf L c ≠ [] := by
    rcases (values_kept env hb).2.1 c d hd with ⟨x, hx, rfl⟩ | ⟨hc, -⟩
    · exact (h3 x hx hpop).1
    · exact absurd hc hpop
  obtain ⟨d', hd', hs⟩ := load_comp h hcne
  rw [hd] at hd'
  cases hd'
  have e : rowsFor L c = withGeo L.df L.cols.geo := by simp [rowsFor, hrev]
  rw [e] at hs
  generalize withGeo L.df L.cols.geo = rows at *
  generalize columnsOf L c = cols at *
  obtain ⟨i', hi'⟩ := getElem?_of_mem ((hs.geos g).1 (List.mem_of_getElem? hi))
  obtain ⟨j', hj'⟩ := getElem?_of_mem ((hs.times rfl t).1 (List.mem_of_getElem? hj))
  rw [hs.value i i' j j' k g t hi hi' (by simp [hj, hj'])] at hv
  rw [hs.channels] at hk
  simp only [pivot, List.getElem?_map, Option.map_eq_some_iff] at hk
  obtain ⟨⟨col, ch⟩, hk1, hk2⟩ := hk
  simp only at hk2
  subst hk2
  simp only [pivot, hk1] at hv hj'
  rw [hj'] at hv
  cases hgi : (labels ((filled rows cols).map Row.geo))[i']? with
  | none => rw [hgi] at hv; cases hv
  | some g0 =>
    rw [hgi] at hv
    simp only at hv
    obtain ⟨r, hr, hr1, hr2, hr3⟩ := cellAt_some hv
    have hcm : (col, ch) ∈ cols := List.mem_of_mem_filter (List.mem_of_getElem? hk1)
    refine ⟨r, hr, col, hcm, ?_, hr2, hr3⟩
    rw [hr1]
    unfold normGeos at hi'
    split_ifs at hi' with h5
    · have hg : g = nationalGeo := by
        have := List.mem_of_getElem? hi'
        simpa using this
      refine Or.inr ⟨hg, fun x hx => ?_⟩
      have := (hs.geos x).1 hx
      simpa [normGeos, h5] using this
    · have : (pivot rows cols).geos[i']? = some g0 := hgi
      rw [this] at hi'
      exact Or.inl (Option.some.inj hi').symm

/-- Media columns without spend columns (and their mapping) are left out without an error, as are
reach columns without frequency columns, and organic reach columns without organic frequency
columns. -/
theorem unpaired_columns_ignored {env : Env κ} {L : Loader} {b : Comp → Option DA}
    (h : load env L = .ok b) :
    (L.mediaSpend = none → b .media = none) ∧ (L.frequency = none → b .reach = none) ∧
      (L.organicFrequency = none → b .organicReach = none) := by
  obtain ⟨l, hl, hb⟩ := load_ok h
  obtain ⟨-, -, h3, -⟩ := parts_spec hl
  have key : ∀ c, c ≠ .population → columnsOf L c = [] → b c = none := by
    intro c hc hn
    cases hd : b c with
    | none => rfl
    | some d =>
      rcases (values_kept env hb).2.1 c d hd with ⟨x, hx, rfl⟩ | ⟨hc', -⟩
      · exact absurd hn (h3 x hx hc).1
      · exact absurd hc' hc
  refine ⟨fun h0 => key .media (by decide) ?_, fun h0 => key .reach (by decide) ?_,
    fun h0 => key .organicReach (by decide) ?_⟩ <;>
  simp [columnsOf, h0]

/-- A column without any value is left out of the result without an error. -/
theorem empty_column_dropped {env : Env κ} {L : Loader} {b : Comp → Option DA}
    (h : load env L = .ok b) {cols : List String} (hcols : L.cols.controls = some cols)
    {col : String} (hcol : col ∈ cols)
    (hnan : ∀ r ∈ withGeo L.df L.cols.geo, r.cell col = none) :
    ∃ d, b .controls = some d ∧ col ∉ d.channels := by
  have hne : columnsOf L .controls ≠ [] := by
    simp only [columnsOf, plain, hcols, Option.getD_some, ne_eq, List.map_eq_nil_iff]
    exact List.ne_nil_of_mem hcol
  obtain ⟨d, hd, hs⟩ := load_comp h hne
  refine ⟨d, hd, ?_⟩
  rw [hs.channels]
  intro hm
  simp only [pivot, usedCols, List.mem_map, List.mem_filter, List.any_eq_true] at hm
  obtain ⟨cc, ⟨hcc, r, hr, hsome⟩, rfl⟩ := hm
  simp only [columnsOf, plain, hcols, Option.getD_some, List.mem_map] at hcc
  obtain ⟨x, -, rfl⟩ := hcc
  rw [rowsFor_eq (by decide)] at hr
  simp only at hsome
  rw [hnan r hr] at hsome
  cases hsome

/-- The population of a geo is the mean over its rows. -/
theorem population_mean {env : Env κ} {L : Loader} {b : Comp → Option DA} (h : load env L = .ok b)
    (hcol : L.cols.population ∈ L.df.columns)
    {r r' : Row} (hr : r ∈ withGeo L.df L.cols.geo) (hr' : r' ∈ withGeo L.df L.cols.geo)
    (hne : r.geo ≠ r'.geo) :
    ∃ (d : DA) (i : ℕ), b .population = some d ∧ d.geos[i]? = some r.geo ∧
      ∀ j k, d.vals i j k = nanMean (((withGeo L.df L.cols.geo).filter
        fun x => decide (x.geo = r.geo)).map fun x => x.cell L.cols.population) := by
  obtain ⟨l, hl, hb⟩ := load_ok h
  have hmem : (Comp.population, population (withGeo L.df L.cols.geo) L.cols.population) ∈ l := by
    unfold parts at hl
    obtain ⟨_, -, hl⟩ := bind_ok.1 hl
    obtain ⟨_, -, hl⟩ := bind_ok.1 hl
    obtain ⟨a, -, hl⟩ := bind_ok.1 hl
    obtain ⟨p, hp, hl⟩ := bind_ok.1 hl
    obtain ⟨_, -, hl⟩ := bind_ok.1 hl
    obtain ⟨_, -, hl⟩ := bind_ok.1 hl
    obtain ⟨_, -, hl⟩ := bind_ok.1 hl
    obtain ⟨_, -, hl⟩ := bind_ok.1 hl
    obtain ⟨_, -, hl⟩ := bind_ok.1 hl
    obtain ⟨_, -, hl⟩ := bind_ok.1 hl
    obtain ⟨_, -, hl⟩ := bind_ok.1 hl
    unfold populationPart at hp
    rw [if_pos hcol] at hp
    obtain ⟨_, -, hp⟩ := bind_ok.1 hp
    cases hp
    have := Except.ok.inj hl
    rw [← this]
    simp
  have hlen : ¬ (labels ((withGeo L.df L.cols.geo).map Row.geo)).length = 1 := by
    intro h1
    obtain ⟨g0, hg0⟩ := List.length_eq_one_iff.1 h1
    have m1 : r.geo ∈ labels ((withGeo L.df L.cols.geo).map Row.geo) :=
      mem_labels.2 (List.mem_map.2 ⟨r, hr, rfl⟩)
    have m2 : r'.geo ∈ labels ((withGeo L.df L.cols.geo).map Row.geo) :=
      mem_labels.2 (List.mem_map.2 ⟨r', hr', rfl⟩)
    rw [hg0, List.mem_singleton] at m1 m2
    exact hne (m1.trans m2.symm)
  obtain ⟨d, hd, hs⟩ := (values_kept env hb).1 _ hmem fun _ => hlen
  have hg : r.geo ∈ labels ((withGeo L.df L.cols.geo).map Row.geo) :=
    mem_labels.2 (List.mem_map.2 ⟨r, hr, rfl⟩)
  have hng : normGeos (population (withGeo L.df L.cols.geo) L.cols.population).geos =
      labels ((withGeo L.df L.cols.geo).map Row.geo) := by
    simp only [normGeos, population, hlen, if_false]
  obtain ⟨i, hi⟩ := getElem?_of_mem ((hs.geos r.geo).2 (hng ▸ hg))
  obtain ⟨i', hi'⟩ := getElem?_of_mem hg
  refine ⟨d, i, hd, hi, fun j k => ?_⟩
  rw [hs.value i i' j j k r.geo "" hi (by rw [hng]; exact hi') (by simp [Comp.kind])]
  simp only [population, hi']

/-- The population is the mean of the values that are there. -/
theorem population_values {env : Env κ} {L : Loader} {b : Comp → Option DA} (h : load env L = .ok b)
    (hcol : L.cols.population ∈ L.df.columns)
    {r r' : Row} (hr : r ∈ withGeo L.df L.cols.geo) (hr' : r' ∈ withGeo L.df L.cols.geo)
    (hne : r.geo ≠ r'.geo) (vs : List ℚ)
    (hvs : ((withGeo L.df L.cols.geo).filter fun x => decide (x.geo = r.geo)).map
      (fun x => x.cell L.cols.population) = vs.map some) :
    ∃ (d : DA) (i : ℕ), b .population = some d ∧ d.geos[i]? = some r.geo ∧
      ∀ j k, ∃ m, d.vals i j k = some m ∧ m * vs.length = vs.sum := by
  obtain ⟨d, i, h1, h2, h3⟩ := population_mean h hcol hr hr' hne
  refine ⟨d, i, h1, h2, fun j k => ?_⟩
  rw [h3, hvs]
  have hlen : vs ≠ [] := by
    intro h0
    rw [h0, List.map_nil, List.map_eq_nil_iff, List.filter_eq_nil_iff] at hvs
    exact hvs r hr (by simp)
  have hne' : (vs.length : ℚ) ≠ 0 := by
    have := List.length_pos_of_ne_nil hlen
    exact_mod_cast this.ne'
  refine ⟨vs.sum / vs.length, ?_, div_mul_cancel₀ _ hne'⟩
  simp [nanMean, hlen]

omit [LinearOrder κ] in
theorem validCols_ok {f : Frame} {req opt : List String} :
    validCols f req opt = .ok () ↔ (req ++ opt).Nodup ∧ ∀ c ∈ req, c ∈ f.columns := by
  unfold validCols
  by_cases h1 : (req ++ opt).Nodup
  · rw [if_neg (not_not.2 h1)]
    by_cases h2 : (req.all fun c => decide (c ∈ f.columns)) = true
    · rw [if_neg (not_not.2 h2)]
      simp only [List.all_eq_true, decide_eq_true_eq] at h2
      exact ⟨fun _ => ⟨h1, h2⟩, fun _ => rfl⟩
    · rw [if_pos h2]
      simp only [List.all_eq_true, decide_eq_true_eq] at h2
      simp [h1, h2]
  · rw [if_pos h1]; simp [h1]

/-- The columns of what is loaded exist, and those of the KPI, the controls, the non-media treatments
and the organic media are distinct from each other within their kind, from the time column and from
the geo column. -/
theorem loaded_columns {env : Env κ} {L : Loader} {b : Comp → Option DA} (h : load env L = .ok b) :
    ([L.cols.kpi, L.cols.time, L.cols.geo].Nodup ∧ L.cols.kpi ∈ L.df.columns ∧
      L.cols.time ∈ L.df.columns) ∧
    ∀ o ∈ [L.cols.controls, L.cols.nonMedia, L.cols.organicMedia], ∀ l, o = some l → l ≠ [] →
      (l ++ [L.cols.time, L.cols.geo]).Nodup ∧ ∀ c ∈ l, c ∈ L.df.columns := by
  obtain ⟨p, hp, -⟩ := load_ok h
  unfold parts at hp
  obtain ⟨_, -, hp⟩ := bind_ok.1 hp
  obtain ⟨_, -, hp⟩ := bind_ok.1 hp
  obtain ⟨_, hk, hp⟩ := bind_ok.1 hp
  obtain ⟨_, -, hp⟩ := bind_ok.1 hp
  obtain ⟨_, hc, hp⟩ := bind_ok.1 hp
  obtain ⟨_, hn, hp⟩ := bind_ok.1 hp
  obtain ⟨_, -, hp⟩ := bind_ok.1 hp
  obtain ⟨_, -, hp⟩ := bind_ok.1 hp
  obtain ⟨_, -, hp⟩ := bind_ok.1 hp
  obtain ⟨_, ho, -⟩ := bind_ok.1 hp
  have plainCols : ∀ {c : Comp} {o : Option (List String)} {x : List (Comp × DA)},
      plainPart L c o = .ok x → ∀ l, o = some l → l ≠ [] →
      (l ++ [L.cols.time, L.cols.geo]).Nodup ∧ ∀ c ∈ l, c ∈ L.df.columns := by
    intro c o x hx l ho' hl
    subst ho'
    unfold plainPart at hx
    have hemp : l.isEmpty = false := by cases l <;> simp_all
    simp only [hemp, Bool.false_eq_true, if_false] at hx
    obtain ⟨_, hv, -⟩ := bind_ok.1 hx
    obtain ⟨h1, h2⟩ := validCols_ok.1 hv
    refine ⟨by simpa using h1, fun c hc => h2 c (List.mem_append_left _ hc)⟩
  constructor
  · unfold kpiPart at hk
    obtain ⟨_, hv, -⟩ := bind_ok.1 hk
    obtain ⟨h1, h2⟩ := validCols_ok.1 hv
    exact ⟨by simpa using h1, h2 _ (by simp), h2 _ (by simp)⟩
  · intro o hmem
    simp only [List.mem_cons, List.not_mem_nil, or_false] at hmem
    rcases hmem with rfl | rfl | rfl
    · exact plainCols hc
    · exact plainCols hn
    · exact plainCols ho

/-- The columns for paid media that a loader demands: media with spend, or reach with frequency and
spend. -/
theorem paid_columns_needed {env : Env κ} {L : Loader} {b : Comp → Option DA}
    (h : load env L = .ok b) :
    (∃ m s, L.cols.media = some m ∧ m ≠ [] ∧ L.cols.mediaSpend = some s ∧ s ≠ []) ∨
    (∃ r f s, L.cols.reach = some r ∧ r ≠ [] ∧ L.cols.frequency = some f ∧ f ≠ [] ∧
      L.cols.rfSpend = some s ∧ s ≠ []) := by
  obtain ⟨p, hp, -⟩ := load_ok h
  unfold parts at hp
  obtain ⟨_, hk, -⟩ := bind_ok.1 hp
  have ht : ∀ o : Option (List String), truthy o = true → ∃ l, o = some l ∧ l ≠ [] := by
    intro o ho
    cases o with
    | none => cases ho
    | some l => exact ⟨l, rfl, by simpa [truthy] using ho⟩
  unfold Columns.check at hk
  by_cases hc : ((truthy L.cols.media && truthy L.cols.mediaSpend) ||
      (truthy L.cols.reach && truthy L.cols.frequency && truthy L.cols.rfSpend)) = true
  · simp only [Bool.or_eq_true, Bool.and_eq_true] at hc
    rcases hc with ⟨h1, h2⟩ | ⟨⟨h1, h2⟩, h3⟩
    · obtain ⟨m, hm, hm'⟩ := ht _ h1
      obtain ⟨s, hs, hs'⟩ := ht _ h2
      exact Or.inl ⟨m, s, hm, hm', hs, hs'⟩
    · obtain ⟨r, hr, hr'⟩ := ht _ h1
      obtain ⟨f, hf, hf'⟩ := ht _ h2
      obtain ⟨s, hs, hs'⟩ := ht _ h3
      exact Or.inr ⟨r, f, s, hr, hr', hf, hf', hs, hs'⟩
  · rw [if_pos hc] at hk; cases hk

/-- What fits together pairwise about times. -/
def SameTimes (x y : Comp × DA) : Prop :=
  x.1.kind = y.1.kind → x.1.kind ≠ .noTime → ∀ t, t ∈ x.2.times ↔ t ∈ y.2.times

instance : Std.Symm SameTimes :=
  ⟨fun _ _ h hk hn t => (h hk.symm (hk ▸ hn) t).symm⟩

/-- With a KPI that is revenue and a column for the revenue per KPI, a data frame with initial
periods that have media data only - as the documentation allows - cannot be loaded: the revenue per
KPI is set to one in these periods too. -/
theorem lagged_revenue_rejected (env : Env κ) {L : Loader} (hrev : L.isRevenue = true) {col : String}
    (hcol : L.cols.revenuePerKpi = some col) {r : Row} (hr : r ∈ withGeo L.df L.cols.geo)
    (hna : ∀ r' ∈ withGeo L.df L.cols.geo, r'.time = r.time → r'.cell L.cols.kpi = none)
    (b : Comp → Option DA) : load env L ≠ .ok b := by
  intro h
  obtain ⟨d, hd, i, j, k, name, -, -, hj, -, -⟩ := revenue_is_one h hrev hcol hr
  obtain ⟨l, hl, hb⟩ := load_ok h
  obtain ⟨-, h1, -, -⟩ := parts_spec hl
  obtain ⟨⟨-, hp⟩, -⟩ := (accepted_iff env l).1 ⟨b, hb⟩
  have m1 := h1 .revenuePerKpi (by simp [columnsOf, hcol])
  have m2 := h1 .kpi (by simp [columnsOf])
  have hp' : l.Pairwise SameTimes := hp.imp fun {x y} h => h.times
  have hst := hp'.forall m1 m2 (by simp)
  obtain ⟨d', hd', hs⟩ := load_comp h (c := .revenuePerKpi) (by simp [columnsOf, hcol])
  rw [hd] at hd'
  cases hd'
  have ht := (hst rfl (by simp [Comp.kind]) r.time).1 ((hs.times rfl _).1 (List.mem_of_getElem? hj))
  simp only [pivot, mem_labels, List.mem_map, filled, List.mem_filter, List.any_eq_true] at ht
  obtain ⟨r', ⟨hr', cc, hcc, hsome⟩, ht⟩ := ht
  rw [rowsFor_eq (by decide)] at hr'
  simp only [columnsOf, List.mem_singleton] at hcc
  subst hcc
  simp only at hsome
  rw [hna r' hr' ht] at hsome
  cases hsome

end values

/-! ## Examples -/

/-- A small data frame: two geos, three weeks, the first week without KPI. -/
def frame0 : Frame where
  columns := ["geo", "time", "sales", "people", "temp", "empty", "tv", "tv_cost"]
  rows := [⟨"b", "2024-01-15", cells (some 5) 20 3⟩, ⟨"a", "2024-01-01", cells none 10 1⟩,
    ⟨"a", "2024-01-08", cells (some 2) 10 2⟩, ⟨"a", "2024-01-15", cells (some 3) 10 2⟩,
    ⟨"b", "2024-01-08", cells (some 4) 20 4⟩, ⟨"b", "2024-01-01", cells none 20 5⟩]
where
  /-- The cells of a row. -/
  cells (sales : Num) (people tv : ℚ) : String → Num := fun c =>
    if c = "sales" then sales else if c = "people" then some people
    else if c = "temp" then (if sales = none then none else some 7) else if c = "empty" then none
    else if c = "tv" then some tv else if c = "tv_cost" then (if sales = none then none else some 1)
    else none

/-- A loader for it. -/
def loader0 : Loader where
  df := frame0
  cols := { time := "time", geo := "geo", kpi := "sales", population := "people", revenuePerKpi := none,
            controls := some ["temp", "empty"], nonMedia := none, organicMedia := none,
            media := some ["tv"], mediaSpend := some ["tv_cost"], reach := none, frequency := none,
            rfSpend := none, organicReach := some ["tv"], organicFrequency := none }
  isRevenue := false
  media := some [("tv", "TV")]
  mediaSpend := some [("tv_cost", "TV")]
  reach := none
  frequency := none
  rfSpend := none
  organicReach := some [("tv", "TV2")]
  organicFrequency := none

example : shape (load env0 loader0) .kpi =
    some (["a", "b"], ["2024-01-08", "2024-01-15"], [some 2, some 3, some 4, some 5]) := by
  decide +kernel
example : shape (load env0 loader0) .media = some (["a", "b"],
    ["2024-01-01", "2024-01-08", "2024-01-15"], [some 1, some 2, some 2, some 5, some 4, some 3]) := by
  decide +kernel
-- the control "empty" and the organic reach are left out
example : (match load env0 loader0 with
    | .ok b => (b .controls).map DA.channels
    | .error _ => none) = some ["temp"] := by decide +kernel
example : shape (load env0 loader0) .organicReach = none := by decide +kernel
example : ("tv", "TV") ∈ columnsOf loader0 .media := by decide
-- the mean of the rows of each geo
example : (match load env0 loader0 with
    | .ok b => (b .population).map fun d => (d.geos, d.vals 0 0 0, d.vals 1 0 0)
    | .error _ => none) = some (["a", "b"], some 10, some 20) := by
  decide +kernel
-- another order of the rows
example : frame0.rows.reverse.Perm frame0.rows ∧ frame0.rows.reverse.map Row.geo ≠ frame0.rows.map Row.geo :=
  ⟨List.reverse_perm _, by decide⟩
-- a KPI that is revenue, with and without periods that have media data only
example : (match load env0 { loader0 with
      isRevenue := true, cols := { loader0.cols with revenuePerKpi := some "temp" } } with
    | .ok _ => true
    | .error _ => false) = false := by decide +kernel
example : shape (load env0 { loader0 with
      df := { frame0 with rows := frame0.rows.filter fun r => decide (r.time ≠ "2024-01-01") }
      isRevenue := true, cols := { loader0.cols with revenuePerKpi := some "temp" } }) .revenuePerKpi =
    some (["a", "b"], ["2024-01-08", "2024-01-15"], List.replicate 4 (some 1)) := by decide +kernel

end Verif.DataFrame.Props

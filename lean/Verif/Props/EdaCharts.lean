import Mathlib.Data.List.Perm.Basic
import Mathlib.Tactic.Linarith
import Mathlib.Tactic.FieldSimp
import Verif.Spec.EdaCharts
import Verif.Props.Lookup

/-!
# C102: the tables and charts of the exploratory report
-/

namespace Verif.EdaCharts.Props

open Spec

/-! ### Tables -/

theorem first_of_sorted {α : Type} {le : α → α → Prop} [DecidableRel le] (total : ∀ a b, le a b ∨ le b a)
    (trans : ∀ a b c, le a b → le b c → le a c) (n : ℕ) (items : List α) :
    First le n items ((items.insertionSort le).take n) := by
  haveI : Std.Total le := ⟨total⟩
  haveI : IsTrans α le := ⟨trans⟩
  have hs : (items.insertionSort le).Pairwise le := List.pairwise_insertionSort le items
  have hp : (items.insertionSort le).Perm items := List.perm_insertionSort le items
  refine ⟨by rw [List.length_take, hp.length_eq], hs.sublist (List.take_sublist _ _),
    (items.insertionSort le).drop n, by rw [List.take_append_drop]; exact hp, ?_⟩
  rw [← List.take_append_drop n (items.insertionSort le), List.pairwise_append] at hs
  exact hs.2.2

theorem downName_total (a b : Row) : downName a b ∨ downName b a := by
  unfold downName
  rcases lt_trichotomy a.key1 b.key1 with h | h | h
  · exact Or.inr (Or.inl h)
  · rcases le_total a.name b.name with h2 | h2
    · exact Or.inl (Or.inr ⟨h, h2⟩)
    · exact Or.inr (Or.inr ⟨h.symm, h2⟩)
  · exact Or.inl (Or.inl h)

theorem downName_trans (a b c : Row) (h1 : downName a b) (h2 : downName b c) : downName a c := by
  unfold downName at *
  rcases h1 with h1 | ⟨h1, h1'⟩ <;> rcases h2 with h2 | ⟨h2, h2'⟩
  · exact Or.inl (h2.trans h1)
  · exact Or.inl (h2 ▸ h1)
  · exact Or.inl (h1 ▸ h2)
  · exact Or.inr ⟨h1.trans h2, h1'.trans h2'⟩

theorem upUpName_total (a b : Row) : upUpName a b ∨ upUpName b a := by
  unfold upUpName
  rcases lt_trichotomy a.key1 b.key1 with h | h | h
  · exact Or.inl (Or.inl h)
  · rcases lt_trichotomy a.key2 b.key2 with g | g | g
    · exact Or.inl (Or.inr ⟨h, Or.inl g⟩)
    · rcases le_total a.name b.name with h2 | h2
      · exact Or.inl (Or.inr ⟨h, Or.inr ⟨g, h2⟩⟩)
      · exact Or.inr (Or.inr ⟨h.symm, Or.inr ⟨g.symm, h2⟩⟩)
    · exact Or.inr (Or.inr ⟨h.symm, Or.inl g⟩)
  · exact Or.inr (Or.inl h)

theorem upUpName_trans (a b c : Row) (h1 : upUpName a b) (h2 : upUpName b c) : upUpName a c := by
  unfold upUpName at *
  rcases h1 with h1 | ⟨h1, h1'⟩ <;> rcases h2 with h2 | ⟨h2, h2'⟩
  · exact Or.inl (h1.trans h2)
  · exact Or.inl (h2 ▸ h1)
  · exact Or.inl (h1 ▸ h2)
  · refine Or.inr ⟨h1.trans h2, ?_⟩
    rcases h1' with h1' | ⟨h1', h1''⟩ <;> rcases h2' with h2' | ⟨h2', h2''⟩
    · exact Or.inl (h1'.trans h2')
    · exact Or.inl (h2' ▸ h1')
    · exact Or.inl (h1' ▸ h2')
    · exact Or.inr ⟨h1'.trans h2', h1''.trans h2''⟩

theorem downDownName_total (a b : Row) : downDownName a b ∨ downDownName b a := by
  unfold downDownName
  rcases lt_trichotomy a.key1 b.key1 with h | h | h
  · exact Or.inr (Or.inl h)
  · rcases lt_trichotomy a.key2 b.key2 with g | g | g
    · exact Or.inr (Or.inr ⟨h.symm, Or.inl g⟩)
    · rcases le_total a.name b.name with h2 | h2
      · exact Or.inl (Or.inr ⟨h, Or.inr ⟨g, h2⟩⟩)
      · exact Or.inr (Or.inr ⟨h.symm, Or.inr ⟨g.symm, h2⟩⟩)
    · exact Or.inl (Or.inr ⟨h, Or.inl g⟩)
  · exact Or.inl (Or.inl h)

theorem downDownName_trans (a b c : Row) (h1 : downDownName a b) (h2 : downDownName b c) :
    downDownName a c := by
  unfold downDownName at *
  rcases h1 with h1 | ⟨h1, h1'⟩ <;> rcases h2 with h2 | ⟨h2, h2'⟩
  · exact Or.inl (h2.trans h1)
  · exact Or.inl (h2 ▸ h1)
  · exact Or.inl (h1 ▸ h2)
  · refine Or.inr ⟨h1.trans h2, ?_⟩
    rcases h1' with h1' | ⟨h1', h1''⟩ <;> rcases h2' with h2' | ⟨h2', h2''⟩
    · exact Or.inl (h2'.trans h1')
    · exact Or.inl (h2' ▸ h1')
    · exact Or.inl (h1' ▸ h2')
    · exact Or.inr ⟨h1'.trans h2', h1''.trans h2''⟩

theorem First.mono {α : Type} {le le' : α → α → Prop} {n : ℕ} {items shown : List α}
    (h : First le n items shown) (hl : ∀ a b, le a b → le' a b) : First le' n items shown := by
  obtain ⟨h1, h2, rest, h3, h4⟩ := h
  exact ⟨h1, h2.imp (hl _ _), rest, h3, fun a ha b hb => hl _ _ (h4 a ha b hb)⟩

/-- **C102.** The tables of outliers and of inflated variables show the five rows with the largest values
(all if there are less), largest first; equal ones by name. -/
theorem largest_shown (rows : List Row) :
    First (fun a b => b.key1 ≤ a.key1) 5 rows (display downName rows) ∧
    (display downName rows).Pairwise fun a b => a.key1 = b.key1 → a.name ≤ b.name := by
  have h := first_of_sorted downName_total downName_trans 5 rows
  constructor
  · refine First.mono h ?_
    intro a b hab
    rcases hab with hab | hab
    · exact hab.le
    · exact hab.1.symm.le
  · refine h.2.1.imp ?_
    intro a b hab he
    rcases hab with hab | hab
    · rw [he] at hab
      exact absurd hab (lt_irrefl _)
    · exact hab.2

/-- **C102.** The table of inconsistent costs shows the five rows with the most media units, most first;
for equal units those with the highest spend, then by name. -/
theorem inconsistent_shown (rows : List Row) :
    First (fun a b => b.key1 < a.key1 ∨ (a.key1 = b.key1 ∧ b.key2 ≤ a.key2)) 5 rows
      (display downDownName rows) ∧
    (display downDownName rows).Pairwise
      fun a b => a.key1 = b.key1 → a.key2 = b.key2 → a.name ≤ b.name := by
  have h := first_of_sorted downDownName_total downDownName_trans 5 rows
  constructor
  · refine First.mono h ?_
    rintro a b (hab | ⟨hab, hc | hc⟩)
    · exact Or.inl hab
    · exact Or.inr ⟨hab, hc.le⟩
    · exact Or.inr ⟨hab, hc.1.symm.le⟩
  · refine h.2.1.imp ?_
    rintro a b (hab | ⟨hab, hc | hc⟩) he hf
    · rw [he] at hab
      exact absurd hab (lt_irrefl _)
    · rw [hf] at hc
      exact absurd hc (lt_irrefl _)
    · exact hc.2

/-- **C102.** The table of variables without variation has a row for every entry whose standard deviation
without outliers is a number below the threshold, and shows the five smallest, smallest first; for equal
ones those with the smaller standard deviation with outliers, then by name. -/
theorem low_shown (threshold : ℚ) (entries : List StdEntry) :
    (∀ r, r ∈ lowRows threshold entries ↔ ∃ e ∈ entries, e.without = some r.key1 ∧ r.key1 < threshold ∧
      r.geo = e.geo ∧ r.name = e.name ∧ r.key2 = e.withOutliers ∧ r.time = none) ∧
    First (fun a b => a.key1 < b.key1 ∨ (a.key1 = b.key1 ∧ a.key2 ≤ b.key2)) 5 (lowRows threshold entries)
      (display upUpName (lowRows threshold entries)) ∧
    (display upUpName (lowRows threshold entries)).Pairwise
      fun a b => a.key1 = b.key1 → a.key2 = b.key2 → a.name ≤ b.name := by
  refine ⟨?_, ?_, ?_⟩
  · intro r
    unfold lowRows
    rw [List.mem_filterMap]
    constructor
    · rintro ⟨e, he, h⟩
      cases hw : e.without with
      | none => simp [hw] at h
      | some s =>
        rw [hw] at h
        simp only at h
        split_ifs at h with hs
        injection h with h
        subst h
        exact ⟨e, he, hw, hs, rfl, rfl, rfl, rfl⟩
    · rintro ⟨e, he, h1, h2, h3, h4, h5, h6⟩
      refine ⟨e, he, ?_⟩
      rw [h1]
      simp only
      rw [if_pos h2, ← h3, ← h4, ← h5, ← h6]
  · refine First.mono (first_of_sorted upUpName_total upUpName_trans 5 _) ?_
    rintro a b (hab | ⟨hab, hc | hc⟩)
    · exact Or.inl hab
    · exact Or.inr ⟨hab, hc.le⟩
    · exact Or.inr ⟨hab, hc.1.le⟩
  · refine (first_of_sorted upUpName_total upUpName_trans 5 _).2.1.imp ?_
    rintro a b (hab | ⟨hab, hc | hc⟩) he hf
    · rw [he] at hab
      exact absurd hab (lt_irrefl _)
    · rw [hf] at hc
      exact absurd hc (lt_irrefl _)
    · exact hc.2

/-- **C102.** There is a note that rows are missing exactly if some are; it counts the channels, the times
and the geos of all rows. -/
theorem note_exact (le : Row → Row → Prop) [DecidableRel le] (rows : List Row) (t g : Bool) :
    (note rows t g = none ↔ (display le rows).length = rows.length) ∧
    ∀ m, note rows t g = some m →
      m.channels = (rows.map Row.name).toFinset.card ∧
      (∀ k, m.times = some k ↔ t = true ∧ 0 < k ∧ k = (rows.filterMap Row.time).toFinset.card) ∧
      (∀ k, m.geos = some k ↔ g = true ∧ 0 < k ∧ k = (rows.filterMap Row.geo).toFinset.card) := by
  have hl : (display le rows).length = min 5 rows.length := by
    unfold display displayLimit
    rw [List.length_take, (List.perm_insertionSort le rows).length_eq]
  have hd : ∀ l : List String, distinct l = l.toFinset.card := fun l => (List.card_toFinset l).symm
  unfold note displayLimit
  rw [hl]
  by_cases h : rows.length ≤ 5
  · simp [h]
  · rw [if_neg h]
    constructor
    · simp
      omega
    · rintro m hm
      injection hm with hm
      subst hm
      refine ⟨hd _, ?_, ?_⟩
      · intro k
        simp only [hd]
        cases t
        · simp
        · simp only [if_true, true_and]
          split_ifs with h0
          · rw [h0]
            simp
            omega
          · simp only [Option.some.injEq]
            constructor
            · rintro rfl
              exact ⟨Nat.pos_of_ne_zero h0, rfl⟩
            · rintro ⟨_, rfl⟩
              rfl
      · intro k
        simp only [hd]
        cases g
        · simp
        · simp only [if_true, true_and]
          split_ifs with h0
          · rw [h0]
            simp
            omega
          · simp only [Option.some.injEq]
            constructor
            · rintro rfl
              exact ⟨Nat.pos_of_ne_zero h0, rfl⟩
            · rintro ⟨_, rfl⟩
              rfl

example : display downName [⟨none, none, "a", 1, 0⟩, ⟨none, none, "c", 7, 0⟩, ⟨none, none, "b", 7, 0⟩,
      ⟨none, none, "d", 2, 0⟩, ⟨none, none, "e", 3, 0⟩, ⟨none, none, "f", 4, 0⟩] =
    [⟨none, none, "b", 7, 0⟩, ⟨none, none, "c", 7, 0⟩, ⟨none, none, "f", 4, 0⟩, ⟨none, none, "e", 3, 0⟩,
      ⟨none, none, "d", 2, 0⟩] ∧
    note [⟨none, none, "a", 1, 0⟩, ⟨none, none, "c", 7, 0⟩, ⟨none, none, "b", 7, 0⟩,
      ⟨none, none, "d", 2, 0⟩, ⟨none, none, "e", 3, 0⟩, ⟨none, none, "e", 4, 0⟩] false false =
      some ⟨5, none, none⟩ := by decide +kernel

theorem mem_firsts (l : List String) (a : String) : a ∈ firsts l ↔ a ∈ l := by
  induction l with
  | nil => simp [firsts]
  | cons b l ih =>
    simp only [firsts, List.mem_cons, List.mem_filter, decide_eq_true_eq, ih]
    by_cases h : a = b <;> simp [h]

theorem firsts_nodup (l : List String) : (firsts l).Nodup := by
  induction l with
  | nil => simp [firsts]
  | cons b l ih =>
    simp only [firsts, List.nodup_cons]
    refine ⟨?_, ih.filter _⟩
    simp

/-- **C102.** There is a time series of costs exactly if a table of costs has rows; it shows at most two
channels, each once, and only channels with a row shown in one of the tables. -/
theorem series_exact (outliers inconsistencies : List Row) :
    (seriesChannels outliers inconsistencies = none ↔ outliers = [] ∧ inconsistencies = []) ∧
    ∀ l, seriesChannels outliers inconsistencies = some l → l ≠ [] ∧ l.length ≤ 2 ∧ l.Nodup ∧
      ∀ c ∈ l, (∃ r ∈ display downName outliers, r.name = c) ∨
        ∃ r ∈ display downDownName inconsistencies, r.name = c := by
  have e : ∀ (le : Row → Row → Prop) [DecidableRel le] (rows : List Row),
      display le rows = [] ↔ rows = [] := by
    intro le _ rows
    unfold display displayLimit
    rw [← List.length_eq_zero_iff, List.length_take, (List.perm_insertionSort le rows).length_eq,
      ← List.length_eq_zero_iff]
    omega
  have hn : firsts ((display downName outliers).map Row.name ++
      (display downDownName inconsistencies).map Row.name) = [] ↔ outliers = [] ∧ inconsistencies = [] := by
    constructor
    · intro h
      have : (display downName outliers).map Row.name ++
          (display downDownName inconsistencies).map Row.name = [] := by
        rw [List.eq_nil_iff_forall_not_mem]
        intro a ha
        rw [← mem_firsts, h] at ha
        cases ha
      simp only [List.append_eq_nil_iff, List.map_eq_nil_iff] at this
      exact ⟨(e _ _).1 this.1, (e _ _).1 this.2⟩
    · rintro ⟨rfl, rfl⟩
      rfl
  unfold seriesChannels
  simp only
  by_cases h : firsts ((display downName outliers).map Row.name ++
      (display downDownName inconsistencies).map Row.name) = []
  · rw [if_pos h]
    exact ⟨⟨fun _ => hn.1 h, fun _ => rfl⟩, by simp⟩
  · rw [if_neg h]
    refine ⟨⟨by simp, fun hh => absurd (hn.2 hh) h⟩, ?_⟩
    intro l hl
    injection hl with hl
    subst hl
    refine ⟨?_, by simp [timeSeriesLimit], (firsts_nodup _).sublist (List.take_sublist _ _), ?_⟩
    · intro hh
      rw [List.take_eq_nil_iff] at hh
      rcases hh with hh | hh
      · cases hh
      · exact h hh
    · intro c hc
      have := (mem_firsts _ _).1 (List.mem_of_mem_take hc)
      rw [List.mem_append, List.mem_map, List.mem_map] at this
      exact this

theorem head_firsts (l : List String) : (firsts l).head? = l.head? := by
  cases l <;> rfl

/-- **C102.** The series of the largest outlier comes first. -/
theorem series_first (outliers inconsistencies : List Row) (l : List String) (r : Row)
    (h : seriesChannels outliers inconsistencies = some l)
    (hr : (display downName outliers).head? = some r) : l.head? = some r.name := by
  unfold seriesChannels at h
  simp only at h
  split_ifs at h with h0
  injection h with h
  subst h
  rw [List.head?_take, if_neg (by decide), head_firsts]
  cases hd : display downName outliers with
  | nil => rw [hd] at hr; cases hr
  | cons a t =>
    rw [hd] at hr
    injection hr with hr
    subst hr
    rfl

example : seriesChannels [⟨none, none, "tv", 9, 0⟩, ⟨none, none, "tv", 8, 0⟩]
    [⟨none, none, "radio", 5, 1⟩, ⟨none, none, "web", 4, 1⟩] = some ["tv", "radio"] := by decide +kernel

/-! ### The heatmap -/

theorem subset_withPair (sel : List String) (p : Corr) : sel ⊆ withPair sel p := by
  intro v hv
  unfold withPair
  exact List.mem_insert_of_mem (List.mem_insert_of_mem hv)

theorem mem_withPair (sel : List String) (p : Corr) (v : String) :
    v ∈ withPair sel p ↔ v ∈ sel ∨ Of v p := by
  unfold withPair Of
  rw [List.mem_insert_iff, List.mem_insert_iff]
  tauto

theorem within_withPair (sel : List String) (p : Corr) : Within p (withPair sel p) :=
  ⟨(mem_withPair _ _ _).2 (Or.inr (Or.inl rfl)), (mem_withPair _ _ _).2 (Or.inr (Or.inr rfl))⟩

theorem withPair_nodup {sel : List String} (p : Corr) (h : sel.Nodup) : (withPair sel p).Nodup :=
  (h.insert).insert

theorem scan_end {max : ℕ} {p : Corr} {rest : List Corr} {sel : List String} {stop : Option ℚ}
    (h : ∃ s, stop = some s ∧ ¬ isClose |p.value| s) : scan max (p :: rest) sel stop = sel := by
  unfold scan
  rw [if_pos h]

theorem scan_cons {max : ℕ} {p : Corr} {rest : List Corr} {sel : List String} {stop : Option ℚ}
    (h : ¬ ∃ s, stop = some s ∧ ¬ isClose |p.value| s) :
    scan max (p :: rest) sel stop =
      if (withPair sel p).length ≤ max then
        (if (withPair sel p).length = max then withPair sel p else scan max rest (withPair sel p) stop)
      else if sel.length = max then sel
      else scan max rest sel (if stop = none then some |p.value| else stop) := by
  rw [scan, if_neg h]
  by_cases hf : (withPair sel p).length ≤ max
  · simp only [hf, decide_true, if_true]
  · simp only [hf, decide_false, Bool.false_eq_true, if_false]

theorem scan_subset (max : ℕ) (l : List Corr) (sel : List String) (stop : Option ℚ) :
    sel ⊆ scan max l sel stop := by
  induction l generalizing sel stop with
  | nil => exact fun v hv => hv
  | cons p rest ih =>
    by_cases h : ∃ s, stop = some s ∧ ¬ isClose |p.value| s
    · rw [scan_end h]
      exact fun v hv => hv
    · rw [scan_cons h]
      by_cases h1 : (withPair sel p).length ≤ max
      · rw [if_pos h1]
        by_cases h2 : (withPair sel p).length = max
        · rw [if_pos h2]
          exact subset_withPair sel p
        · rw [if_neg h2]
          exact fun v hv => ih _ _ (subset_withPair sel p hv)
      · rw [if_neg h1]
        by_cases h2 : sel.length = max
        · rw [if_pos h2]
          exact fun v hv => hv
        · rw [if_neg h2]
          exact ih _ _

theorem scan_length (max : ℕ) (l : List Corr) (sel : List String) (stop : Option ℚ)
    (h : sel.length ≤ max) : (scan max l sel stop).length ≤ max := by
  induction l generalizing sel stop with
  | nil => exact h
  | cons p rest ih =>
    by_cases h0 : ∃ s, stop = some s ∧ ¬ isClose |p.value| s
    · rw [scan_end h0]
      exact h
    · rw [scan_cons h0]
      by_cases h1 : (withPair sel p).length ≤ max
      · rw [if_pos h1]
        by_cases h2 : (withPair sel p).length = max
        · rw [if_pos h2]
          exact h1
        · rw [if_neg h2]
          exact ih _ _ h1
      · rw [if_neg h1]
        by_cases h2 : sel.length = max
        · rw [if_pos h2]
          exact h
        · rw [if_neg h2]
          exact ih _ _ h

/-- If the variables of the first pairs fit, all of them are selected. -/
theorem scan_fits (max : ℕ) (front back : List Corr) (sel w : List String) (hn : sel.Nodup)
    (hw : w.Nodup) (hlen : w.length ≤ max) (hsel : sel ⊆ w) (hf : ∀ p ∈ front, Within p w) :
    ∀ p ∈ front, Within p (scan max (front ++ back) sel none) := by
  induction front generalizing sel with
  | nil => intro p hp; cases hp
  | cons q front ih =>
    have hu : withPair sel q ⊆ w := by
      intro v hv
      rcases (mem_withPair sel q v).1 hv with h | h | h
      · exact hsel h
      · exact h ▸ (hf q (List.mem_cons_self ..)).1
      · exact h ▸ (hf q (List.mem_cons_self ..)).2
    have hun := withPair_nodup q hn
    have hul : (withPair sel q).length ≤ w.length := (List.subperm_of_subset hun hu).length_le
    have hfit : (withPair sel q).length ≤ max := hul.trans hlen
    rw [List.cons_append, scan_cons (by rintro ⟨s, h, _⟩; cases h), if_pos hfit]
    by_cases hfull : (withPair sel q).length = max
    · rw [if_pos hfull]
      have hperm : (withPair sel q).Perm w :=
        (List.subperm_of_subset hun hu).perm_of_length_le (by omega)
      intro p hp
      have := hf p hp
      exact ⟨hperm.mem_iff.2 this.1, hperm.mem_iff.2 this.2⟩
    · rw [if_neg hfull]
      intro p hp
      rcases List.mem_cons.1 hp with rfl | hp
      · have := within_withPair sel p
        exact ⟨scan_subset _ _ _ _ this.1, scan_subset _ _ _ _ this.2⟩
      · exact ih _ hun hu (fun p hp => hf p (List.mem_cons_of_mem _ hp)) p hp

/-- After a pair did not fit, only pairs as strong add variables. -/
theorem scan_stopped (max : ℕ) (s : ℚ) (l : List Corr) (sel : List String) :
    ∀ v ∈ scan max l sel (some s), v ∈ sel ∨ ∃ q ∈ l, Of v q ∧ Within q (scan max l sel (some s)) ∧
      isClose |q.value| s := by
  induction l generalizing sel with
  | nil => exact fun v hv => Or.inl hv
  | cons p rest ih =>
    by_cases hc : isClose |p.value| s
    · rw [scan_cons (by rintro ⟨t, ht, hn⟩; injection ht with ht; subst ht; exact hn hc)]
      by_cases hfit : (withPair sel p).length ≤ max
      · rw [if_pos hfit]
        by_cases hfull : (withPair sel p).length = max
        · rw [if_pos hfull]
          intro v hv
          rcases (mem_withPair sel p v).1 hv with h | h
          · exact Or.inl h
          · exact Or.inr ⟨p, List.mem_cons_self .., h, within_withPair sel p, hc⟩
        · rw [if_neg hfull]
          intro v hv
          rcases ih _ v hv with h | ⟨q, hq, h1, h2, h3⟩
          · rcases (mem_withPair sel p v).1 h with h | h
            · exact Or.inl h
            · have := within_withPair sel p
              exact Or.inr ⟨p, List.mem_cons_self .., h,
                ⟨scan_subset _ _ _ _ this.1, scan_subset _ _ _ _ this.2⟩, hc⟩
          · exact Or.inr ⟨q, List.mem_cons_of_mem _ hq, h1, h2, h3⟩
      · rw [if_neg hfit, if_neg (fun h : some s = none => nomatch h)]
        by_cases hfull : sel.length = max
        · rw [if_pos hfull]
          exact fun v hv => Or.inl hv
        · rw [if_neg hfull]
          intro v hv
          rcases ih _ v hv with h | ⟨q, hq, h1, h2, h3⟩
          · exact Or.inl h
          · exact Or.inr ⟨q, List.mem_cons_of_mem _ hq, h1, h2, h3⟩
    · rw [scan_end ⟨s, rfl, hc⟩]
      exact fun v hv => Or.inl hv

/-- Every selected variable is in a shown pair that is at least as strong as every pair left out, or close
to the strongest of them. -/
theorem scan_strong (max : ℕ) (l : List Corr) (hl : l.Pairwise stronger) (sel : List String)
    (hn : sel.Nodup) (hlen : sel.length < max) :
    ∀ v ∈ scan max l sel none, v ∈ sel ∨ ∃ q ∈ l, Of v q ∧ Within q (scan max l sel none) ∧
      ∀ p ∈ l, ¬ Within p (scan max l sel none) → |p.value| ≤ |q.value| ∨
        ∃ p₀ ∈ l, ¬ Within p₀ (scan max l sel none) ∧ |p.value| ≤ |p₀.value| ∧
          isClose |q.value| |p₀.value| := by
  induction l generalizing sel with
  | nil => exact fun v hv => Or.inl hv
  | cons q rest ih =>
    rw [List.pairwise_cons] at hl
    have hmax : ∀ p ∈ q :: rest, |p.value| ≤ |q.value| := by
      intro p hp
      rcases List.mem_cons.1 hp with rfl | hp
      · exact le_refl _
      · exact hl.1 p hp
    rw [scan_cons (by rintro ⟨s, h, _⟩; cases h)]
    by_cases hfit : (withPair sel q).length ≤ max
    · rw [if_pos hfit]
      by_cases hfull : (withPair sel q).length = max
      · rw [if_pos hfull]
        intro v hv
        rcases (mem_withPair sel q v).1 hv with h | h
        · exact Or.inl h
        · exact Or.inr ⟨q, List.mem_cons_self .., h, within_withPair sel q,
            fun p hp _ => Or.inl (hmax p hp)⟩
      · rw [if_neg hfull]
        have hw := within_withPair sel q
        have hq : Within q (scan max rest (withPair sel q) none) :=
          ⟨scan_subset _ _ _ _ hw.1, scan_subset _ _ _ _ hw.2⟩
        intro v hv
        rcases ih hl.2 _ (withPair_nodup q hn) (lt_of_le_of_ne hfit hfull) v hv with
          h | ⟨r, hr, h1, h2, h3⟩
        · rcases (mem_withPair sel q v).1 h with h | h
          · exact Or.inl h
          · exact Or.inr ⟨q, List.mem_cons_self .., h, hq, fun p hp _ => Or.inl (hmax p hp)⟩
        · refine Or.inr ⟨r, List.mem_cons_of_mem _ hr, h1, h2, ?_⟩
          intro p hp hnot
          rcases List.mem_cons.1 hp with rfl | hp
          · exact absurd hq hnot
          · rcases h3 p hp hnot with h | ⟨p₀, hp₀, h4, h5, h6⟩
            · exact Or.inl h
            · exact Or.inr ⟨p₀, List.mem_cons_of_mem _ hp₀, h4, h5, h6⟩
    · rw [if_neg hfit, if_neg (by omega), if_pos rfl]
      have hout : ¬ Within q (scan max rest sel (some |q.value|)) := by
        intro hw
        have hsub : withPair sel q ⊆ scan max rest sel (some |q.value|) := by
          intro v hv
          rcases (mem_withPair sel q v).1 hv with h | h | h
          · exact scan_subset _ _ _ _ h
          · exact h ▸ hw.1
          · exact h ▸ hw.2
        have h1 := (List.subperm_of_subset (withPair_nodup q hn) hsub).length_le
        have h2 := scan_length max rest sel (some |q.value|) hlen.le
        omega
      intro v hv
      rcases scan_stopped max _ rest sel v hv with h | ⟨r, hr, h1, h2, h3⟩
      · exact Or.inl h
      · exact Or.inr ⟨r, List.mem_cons_of_mem _ hr, h1, h2, fun p hp _ =>
          Or.inr ⟨q, List.mem_cons_self .., hout, hmax p hp, h3⟩⟩

theorem selectVars_lt {pairs : List Corr} {all : List String} {k : ℤ} (h : k < all.length) :
    selectVars pairs all (some k) = scan k.toNat (pairs.insertionSort stronger) [] none := if_pos h

theorem selectVars_ge {pairs : List Corr} {all : List String} {k : ℤ} (h : ¬ k < all.length) :
    selectVars pairs all (some k) = all := if_neg h

/-- **C102.** A limit of less than two variables is refused, and nothing else is. -/
theorem heatmap_refused (pairs : List Corr) (all : List String) (m : Option ℤ) :
    heatmap pairs all m = .error .maxVars ↔ ∃ k, m = some k ∧ k ≤ 1 := by
  unfold heatmap
  by_cases h : ∃ k, m = some k ∧ k ≤ 1
  · simp [h]
  · rw [if_neg h]
    simp only [h, iff_false]
    intro hh
    cases hh

/-- **C102.** The heatmap shows variables in their order, at most as many as the limit, and exactly the
pairs of two shown variables; without a limit or with few enough variables it shows all. -/
theorem heatmap_shows (pairs : List Corr) (all : List String) (m : Option ℤ) (shown : List Corr)
    (vars : List String) (h : heatmap pairs all m = .ok (shown, vars)) :
    vars.Sublist all ∧ (∀ p, p ∈ shown ↔ p ∈ pairs ∧ Within p vars) ∧ shown.Sublist pairs ∧
    (∀ k, m = some k → all.Nodup → (vars.length : ℤ) ≤ max k 0) ∧
    ((∀ k, m = some k → (all.length : ℤ) ≤ k) → vars = all) := by
  unfold heatmap at h
  split_ifs at h with h0
  simp only at h
  injection h with h
  injection h with h1 h2
  refine ⟨?_, ?_, ?_, ?_, ?_⟩
  · rw [← h2]
    exact List.filter_sublist
  · intro p
    rw [← h1, h2, List.mem_filter, decide_eq_true_eq]
    rfl
  · rw [← h1]
    exact List.filter_sublist
  · rintro k rfl hnd
    rw [← h2]
    by_cases hk : k < all.length
    · rw [selectVars_lt hk]
      have hs : (all.filter fun v => decide (v ∈ scan k.toNat (pairs.insertionSort stronger) [] none))
          ⊆ scan k.toNat (pairs.insertionSort stronger) [] none := by
        intro v hv
        rw [List.mem_filter, decide_eq_true_eq] at hv
        exact hv.2
      have := (List.subperm_of_subset (hnd.filter _) hs).length_le
      have := scan_length k.toNat (pairs.insertionSort stronger) [] none (Nat.zero_le _)
      omega
    · rw [selectVars_ge hk]
      have : (all.filter fun v => decide (v ∈ all)).length ≤ all.length := List.length_filter_le _ _
      omega
  · intro hk
    rw [← h2]
    cases m with
    | none =>
      show all.filter (fun v => decide (v ∈ all)) = all
      simp
    | some k =>
      rw [selectVars_ge (not_lt.2 (hk k rfl))]
      simp

theorem sorted_stronger (pairs : List Corr) : (pairs.insertionSort stronger).Pairwise stronger := by
  haveI : Std.Total stronger := ⟨fun a b => le_total _ _⟩
  haveI : IsTrans Corr stronger := ⟨fun a b c h1 h2 => le_trans h2 h1⟩
  exact List.pairwise_insertionSort _ _

theorem sorted_split (l : List Corr) (hl : l.Pairwise stronger) (t : ℚ) :
    ∃ front back, l = front ++ back ∧ (∀ p ∈ front, t ≤ |p.value|) ∧ ∀ p ∈ back, |p.value| < t := by
  induction l with
  | nil => exact ⟨[], [], rfl, by simp, by simp⟩
  | cons q l ih =>
    rw [List.pairwise_cons] at hl
    by_cases h : t ≤ |q.value|
    · obtain ⟨f, b, he, hf, hb⟩ := ih hl.2
      refine ⟨q :: f, b, by rw [he]; rfl, ?_, hb⟩
      intro p hp
      rcases List.mem_cons.1 hp with rfl | hp
      · exact h
      · exact hf p hp
    · refine ⟨[], q :: l, rfl, by simp, ?_⟩
      intro p hp
      rcases List.mem_cons.1 hp with rfl | hp
      · exact not_le.1 h
      · exact lt_of_le_of_lt (hl.1 p hp) (not_le.1 h)

/-- **C102.** If the variables of all pairs with at least some strength fit into the limit, the heatmap
shows all these pairs. -/
theorem strong_pairs_shown (pairs : List Corr) (all : List String) (k : ℤ) (shown : List Corr)
    (vars : List String) (h : heatmap pairs all (some k) = .ok (shown, vars))
    (hall : ∀ p ∈ pairs, Within p all) (t : ℚ) (w : List String) (hw : (w.length : ℤ) ≤ k)
    (hc : ∀ p ∈ pairs, t ≤ |p.value| → Within p w) :
    ∀ p ∈ pairs, t ≤ |p.value| → p ∈ shown := by
  intro p hp ht
  have hs := heatmap_shows pairs all (some k) shown vars h
  rw [hs.2.1]
  refine ⟨hp, ?_⟩
  unfold heatmap at h
  split_ifs at h with h0
  simp only at h
  injection h with h
  injection h with h1 h2
  rw [← h2]
  by_cases hk : k < all.length
  · rw [selectVars_lt hk]
    obtain ⟨front, back, he, hf, hb⟩ := sorted_split _ (sorted_stronger pairs) t
    have hmem : ∀ q, q ∈ front ++ back ↔ q ∈ pairs := by
      intro q
      rw [← he, List.mem_insertionSort]
    have hpf : p ∈ front := by
      rcases List.mem_append.1 ((hmem p).2 hp) with h | h
      · exact h
      · exact absurd (hb p h) (not_lt.2 ht)
    have hlen : w.dedup.length ≤ k.toNat := by
      have := (List.dedup_sublist w).length_le
      omega
    have hfin := scan_fits k.toNat front back [] w.dedup List.nodup_nil (List.nodup_dedup w) hlen
      (by simp) (fun q hq => by
        have := hc q ((hmem q).1 (List.mem_append_left _ hq)) (hf q hq)
        exact ⟨List.mem_dedup.2 this.1, List.mem_dedup.2 this.2⟩) p hpf
    rw [he]
    unfold Within
    rw [List.mem_filter, List.mem_filter, decide_eq_true_eq, decide_eq_true_eq]
    exact ⟨⟨(hall p hp).1, hfin.1⟩, ⟨(hall p hp).2, hfin.2⟩⟩
  · rw [selectVars_ge hk]
    unfold Within
    rw [List.mem_filter, List.mem_filter, decide_eq_true_eq, decide_eq_true_eq]
    exact ⟨⟨(hall p hp).1, (hall p hp).1⟩, ⟨(hall p hp).2, (hall p hp).2⟩⟩

/-- **C102.** If variables are left out, every variable shown belongs to a shown pair that is at least as
strong as any pair left out, or as strong as the strongest of them up to the tolerance. -/
theorem weak_variables_left_out (pairs : List Corr) (all : List String) (k : ℤ) (shown : List Corr)
    (vars : List String) (h : heatmap pairs all (some k) = .ok (shown, vars))
    (hall : ∀ p ∈ pairs, Within p all) (hk : k < all.length) :
    ∀ v ∈ vars, ∃ q ∈ shown, Of v q ∧ ∀ p ∈ pairs, p ∉ shown → |p.value| ≤ |q.value| ∨
      ∃ p₀ ∈ pairs, p₀ ∉ shown ∧ |p.value| ≤ |p₀.value| ∧ isClose |q.value| |p₀.value| := by
  have hs := heatmap_shows pairs all (some k) shown vars h
  have hk1 : 1 < k := by
    by_contra hh
    rw [(heatmap_refused pairs all (some k)).2 ⟨k, rfl, not_lt.1 hh⟩] at h
    cases h
  unfold heatmap at h
  split_ifs at h with h0
  simp only at h
  injection h with h
  injection h with h1 h2
  rw [selectVars_lt hk] at h1 h2
  generalize hR : scan k.toNat (pairs.insertionSort stronger) [] none = R at h1 h2
  have hwith : ∀ p ∈ pairs, Within p vars ↔ Within p R := by
    intro p hp
    unfold Within
    rw [← h2, List.mem_filter, List.mem_filter, decide_eq_true_eq, decide_eq_true_eq]
    have := hall p hp
    unfold Within at this
    tauto
  have hin : ∀ p ∈ pairs, p ∈ shown ↔ Within p R := by
    intro p hp
    rw [hs.2.1, hwith p hp]
    exact ⟨fun h => h.2, fun h => ⟨hp, h⟩⟩
  intro v hv
  rw [← h2, List.mem_filter, decide_eq_true_eq, ← hR] at hv
  have hst := scan_strong k.toNat (pairs.insertionSort stronger) (sorted_stronger pairs) []
    List.nodup_nil (by simp; omega) v hv.2
  rw [hR] at hst
  simp only [List.mem_insertionSort, List.not_mem_nil, false_or] at hst
  obtain ⟨q, hq, h3, h4, h5⟩ := hst
  refine ⟨q, (hin q hq).2 h4, h3, ?_⟩
  intro p hp hnot
  rcases h5 p hp (fun hw => hnot ((hin p hp).2 hw)) with h | ⟨p₀, hp₀, h6, h7, h8⟩
  · exact Or.inl h
  · exact Or.inr ⟨p₀, hp₀, fun hh => h6 ((hin p₀ hp₀).1 hh), h7, h8⟩

example : heatmap [⟨"a", "b", 1 / 2⟩, ⟨"a", "c", -9 / 10⟩, ⟨"b", "c", 1 / 10⟩, ⟨"c", "d", 6 / 10⟩]
    ["a", "b", "c", "d"] (some 3) =
    .ok ([⟨"a", "c", -9 / 10⟩, ⟨"c", "d", 6 / 10⟩], ["a", "c", "d"]) := by decide +kernel

/-- A pair as strong as one that does not fit may still be shown. -/
example : heatmap [⟨"a", "b", 9 / 10⟩, ⟨"c", "d", 1 / 2⟩, ⟨"a", "e", -1 / 2⟩]
    ["a", "b", "c", "d", "e"] (some 3) =
    .ok ([⟨"a", "b", 9 / 10⟩, ⟨"a", "e", -1 / 2⟩], ["a", "b", "e"]) := by decide +kernel

/-! ### Bar charts -/

theorem barLe_total (asc : Bool) (key : Bar → ℚ) (a b : Bar) : barLe asc key a b ∨ barLe asc key b a := by
  unfold barLe
  cases asc <;> simp [le_total]

theorem barLe_trans (asc : Bool) (key : Bar → ℚ) (a b c : Bar) (h1 : barLe asc key a b)
    (h2 : barLe asc key b c) : barLe asc key a c := by
  unfold barLe at *
  cases asc
  · simp only [Bool.false_eq_true, if_false] at *
    exact h2.trans h1
  · simp only [if_true] at *
    exact h1.trans h2

/-- **C102.** A bar chart with a limit shows that many bars (all if there are less): the lowest or the
highest, by value or by absolute value, sorted by value. -/
theorem bars_limited (n : ℕ) (asc abs : Bool) (data : List Bar) :
    (bars (some n) asc abs data).Pairwise (fun a b => if asc then a.2 ≤ b.2 else b.2 ≤ a.2) ∧
    ∃ top, (bars (some n) asc abs data).Perm top ∧
      First (fun a b => if asc then (if abs then |a.2| else a.2) ≤ (if abs then |b.2| else b.2)
        else (if abs then |b.2| else b.2) ≤ (if abs then |a.2| else a.2)) n data top := by
  constructor
  · have : Std.Total (barLe asc Prod.snd) := ⟨barLe_total _ _⟩
    have : IsTrans Bar (barLe asc Prod.snd) := ⟨barLe_trans _ _⟩
    exact List.pairwise_insertionSort (barLe asc Prod.snd) _
  · exact ⟨_, List.perm_insertionSort _ _, first_of_sorted (barLe_total asc _) (barLe_trans asc _) n data⟩

/-- **C102.** Without a limit it shows all bars, sorted. -/
theorem bars_all (asc abs : Bool) (data : List Bar) :
    (bars none asc abs data).Perm data ∧
    (bars none asc abs data).Pairwise (fun a b => if asc then
      (if abs then |a.2| else a.2) ≤ (if abs then |b.2| else b.2)
        else (if abs then |b.2| else b.2) ≤ (if abs then |a.2| else a.2)) := by
  refine ⟨List.perm_insertionSort _ _, ?_⟩
  have : Std.Total (barLe asc (fun b : Bar => if abs then |b.2| else b.2)) := ⟨barLe_total _ _⟩
  have : IsTrans Bar (barLe asc (fun b : Bar => if abs then |b.2| else b.2)) := ⟨barLe_trans _ _⟩
  exact List.pairwise_insertionSort (barLe asc (fun b : Bar => if abs then |b.2| else b.2)) data

example : bars (some 2) false true [("a", 1), ("b", -5), ("c", 3)] = [("c", 3), ("b", -5)] ∧
    bars (some 2) true false [("a", 1), ("b", -5), ("c", 3)] = [("b", -5), ("a", 1)] := by decide +kernel

theorem sum_groups (rows : List (String × ℚ)) (names : List String) (hn : names.Nodup)
    (h : ∀ r ∈ rows, r.1 ∈ names) :
    (names.map fun v => ((rows.filter fun r => r.1 = v).map Prod.snd).sum).sum = (rows.map Prod.snd).sum := by
  induction rows with
  | nil => induction names <;> simp_all
  | cons r rows ih =>
    have ih := ih fun q hq => h q (List.mem_cons_of_mem _ hq)
    have hr := h r (List.mem_cons_self ..)
    rw [List.map_cons, List.sum_cons, ← ih]
    have hstep : ∀ v, (((r :: rows).filter fun q => q.1 = v).map Prod.snd).sum =
        (if v = r.1 then r.2 else 0) + ((rows.filter fun q => q.1 = v).map Prod.snd).sum := by
      intro v
      by_cases hv : r.1 = v
      · rw [List.filter_cons_of_pos (by simpa using hv), if_pos hv.symm]
        simp
      · rw [List.filter_cons_of_neg (by simpa using hv), if_neg (fun e => hv e.symm)]
        simp
    simp only [hstep]
    have hadd : ∀ (l : List String) (f g : String → ℚ),
        (l.map fun v => f v + g v).sum = (l.map f).sum + (l.map g).sum := by
      intro l f g
      induction l with
      | nil => simp
      | cons a l ihl => simp only [List.map_cons, List.sum_cons, ihl]; ring
    rw [hadd]
    congr 1
    clear ih hstep hadd h
    clear * - hn hr
    induction names with
    | nil => cases hr
    | cons a l ihl =>
      rw [List.nodup_cons] at hn
      rw [List.map_cons, List.sum_cons]
      by_cases ha : a = r.1
      · rw [if_pos ha]
        have hz : (l.map fun v => if v = r.1 then r.2 else 0).sum = 0 := by
          have : ∀ v ∈ l, (if v = r.1 then r.2 else 0) = 0 := by
            intro v hv
            rw [if_neg]
            rintro rfl
            exact hn.1 (ha ▸ hv)
          rw [List.map_congr_left this]
          simp
        rw [hz, add_zero]
      · rw [if_neg ha, zero_add]
        rcases List.mem_cons.1 hr with h | h
        · exact absurd h.symm ha
        · exact ihl hn.2 h

/-- **C102.** Each variable has one share, of its sum in the sum of all; the shares add up to one. If the
sum of all is zero there are no shares. -/
theorem shares_exact (rows : List (String × ℚ)) :
    ((shares rows).map Prod.fst).Nodup ∧
    (∀ v, v ∈ (shares rows).map Prod.fst ↔ ∃ r ∈ rows, r.1 = v) ∧
    ((rows.map Prod.snd).sum = 0 → ∀ s ∈ shares rows, s.2 = none) ∧
    ((rows.map Prod.snd).sum ≠ 0 →
      (∀ s ∈ shares rows, ∃ q, s.2 = some q ∧
        q * (rows.map Prod.snd).sum = ((rows.filter fun r => r.1 = s.1).map Prod.snd).sum) ∧
      ((shares rows).map fun s => s.2.getD 0).sum = 1) := by
  have hm : (shares rows).map Prod.fst = firsts (rows.map Prod.fst) := by
    unfold shares
    simp [List.map_map, Function.comp_def]
  refine ⟨hm ▸ firsts_nodup _, ?_, ?_, ?_⟩
  · intro v
    rw [hm, mem_firsts, List.mem_map]
  · intro h s hs
    unfold shares at hs
    obtain ⟨v, _, rfl⟩ := List.mem_map.1 hs
    simp [h]
  · intro h
    constructor
    · intro s hs
      unfold shares at hs
      obtain ⟨v, _, rfl⟩ := List.mem_map.1 hs
      simp only [if_neg h]
      exact ⟨_, rfl, div_mul_cancel₀ _ h⟩
    · have : (shares rows).map (fun s => s.2.getD 0) = (firsts (rows.map Prod.fst)).map fun v =>
          ((rows.filter fun r => r.1 = v).map Prod.snd).sum / (rows.map Prod.snd).sum := by
        unfold shares
        simp only [if_neg h, List.map_map, Function.comp_def, Option.getD_some]
      rw [this]
      have hdiv : ∀ (l : List String) (f : String → ℚ) (t : ℚ),
          (l.map fun v => f v / t).sum = (l.map f).sum / t := by
        intro l f t
        induction l with
        | nil => simp
        | cons a l ih => simp only [List.map_cons, List.sum_cons, ih]; ring
      rw [hdiv, sum_groups rows _ (firsts_nodup _), div_self h]
      intro r hr
      rw [mem_firsts]
      exact List.mem_map_of_mem hr

example : shares [("tv", 1), ("radio", 2), ("tv", 5)] = [("tv", some (3 / 4)), ("radio", some (1 / 4))] := by
  decide +kernel

/-! ### Box plots -/

theorem boxLe_total (a b : Metric) : boxLe a b ∨ boxLe b a := by
  unfold boxLe
  rcases lt_trichotomy (stdOrZero a) (stdOrZero b) with h | h | h
  · exact Or.inl (Or.inl h)
  · rcases le_total (maxOutlier a) (maxOutlier b) with g | g
    · exact Or.inr (Or.inr ⟨h.symm, g⟩)
    · exact Or.inl (Or.inr ⟨h, g⟩)
  · exact Or.inr (Or.inl h)

theorem boxLe_trans (a b c : Metric) (h1 : boxLe a b) (h2 : boxLe b c) : boxLe a c := by
  unfold boxLe at *
  rcases h1 with h1 | ⟨h1, h1'⟩ <;> rcases h2 with h2 | ⟨h2, h2'⟩
  · exact Or.inl (h1.trans h2)
  · exact Or.inl (h2 ▸ h1)
  · exact Or.inl (h1 ▸ h2)
  · exact Or.inr ⟨h1.trans h2, h2'.trans h1'⟩

/-- **C102.** The box plots of a geo show its variables with the smallest standard deviations without
outliers, those with the larger outlier first if equal, as many as asked for; a standard deviation that is
NaN counts as zero. -/
theorem boxes_exact (metrics : List Metric) (geo : Option String) (n : Option ℕ) :
    ∃ top, boxVariables metrics geo n = top.map Metric.name ∧
      First (fun a b => a.std.getD 0 < b.std.getD 0 ∨
          (a.std.getD 0 = b.std.getD 0 ∧ b.outliers.max?.getD 0 ≤ a.outliers.max?.getD 0))
        (n.getD (metrics.filter fun m => m.geo = geo).length) (metrics.filter fun m => m.geo = geo) top := by
  have : Std.Total boxLe := ⟨boxLe_total⟩
  have : IsTrans Metric boxLe := ⟨boxLe_trans⟩
  have hs : ((metrics.insertionSort boxLe).filter fun m => decide (m.geo = geo)).Pairwise boxLe :=
    (List.pairwise_insertionSort boxLe metrics).sublist List.filter_sublist
  have hp : ((metrics.insertionSort boxLe).filter fun m => decide (m.geo = geo)).Perm
      (metrics.filter fun m => decide (m.geo = geo)) := (List.perm_insertionSort boxLe metrics).filter _
  generalize hk : n.getD (metrics.filter fun m => decide (m.geo = geo)).length = k
  refine ⟨((metrics.insertionSort boxLe).filter fun m => decide (m.geo = geo)).take k, ?_, ?_, ?_,
    ((metrics.insertionSort boxLe).filter fun m => decide (m.geo = geo)).drop k, ?_, ?_⟩
  · unfold boxVariables
    simp only
    cases n with
    | none =>
      have hk : (metrics.filter fun m => decide (m.geo = geo)).length = k := hk
      simp only
      rw [List.take_of_length_le (by rw [hp.length_eq, hk])]
    | some m =>
      have hk : m = k := hk
      subst hk
      simp only
      split_ifs with hle
      · rw [List.length_map] at hle
        rw [List.take_of_length_le hle]
      · rw [List.map_take]
  · rw [List.length_take, hp.length_eq]
  · exact hs.sublist (List.take_sublist _ _)
  · rw [List.take_append_drop]
    exact hp
  · rw [← List.take_append_drop k ((metrics.insertionSort boxLe).filter fun m => decide (m.geo = geo)),
      List.pairwise_append] at hs
    exact hs.2.2

example : boxVariables [⟨none, "a", some 1, []⟩, ⟨none, "b", none, []⟩, ⟨none, "c", some 0, [4, 7]⟩,
    ⟨some "g", "d", some 0, []⟩] none (some 2) = ["c", "b"] := by decide +kernel

/-! ### Geos -/

/-- **C102.** A national model and the option to nationalize plot the national geo. A number of geos must
be between one and the number of geos and gives as many of the largest; names must be geos of the data,
without duplicates, and are kept. -/
theorem geos_exact (national : Bool) (all : List (String × ℚ)) (h : (all.map Prod.fst).Nodup)
    (geos : Geos) (r : List String) :
    geosToPlot national all geos = .ok r ↔
      ((national = true ∨ geos = .nationalize) ∧ r = ["national_geo"]) ∨
      (national = false ∧ ∃ n : ℕ, geos = .count n ∧ 1 ≤ n ∧ n ≤ all.length ∧
        r = Lookup.topGeos all n) ∨
      (national = false ∧ geos = .names r ∧ r.Nodup ∧ ∀ g ∈ r, g ∈ all.map Prod.fst) := by
  have hcheck : ∀ l, checkNames (all.map Prod.fst) l = .ok r ↔
      l = r ∧ r.Nodup ∧ ∀ g ∈ r, g ∈ all.map Prod.fst := by
    intro l
    unfold checkNames
    by_cases h1 : ∃ g ∈ l, g ∉ all.map Prod.fst
    · rw [if_pos h1]
      constructor
      · intro hh; cases hh
      · rintro ⟨rfl, _, h2⟩
        obtain ⟨g, hg, hn⟩ := h1
        exact absurd (h2 g hg) hn
    · rw [if_neg h1]
      by_cases h2 : l.Nodup
      · rw [if_pos h2]
        constructor
        · intro hh
          injection hh with hh
          subst hh
          refine ⟨rfl, h2, fun g hg => ?_⟩
          by_contra hn
          exact h1 ⟨g, hg, hn⟩
        · rintro ⟨rfl, _⟩
          rfl
      · rw [if_neg h2]
        constructor
        · intro hh; cases hh
        · rintro ⟨rfl, h3, _⟩
          exact absurd h3 h2
  have htop : ∀ n : ℕ, (Lookup.topGeos all n).Nodup ∧
      ∀ g ∈ Lookup.topGeos all n, g ∈ all.map Prod.fst := by
    intro n
    obtain ⟨top, rest, hp, he, _, _⟩ := Lookup.Props.top_geos all n
    rw [he]
    have hp2 := hp.map Prod.fst
    rw [List.map_append] at hp2
    constructor
    · exact (hp2.nodup_iff.2 h).sublist (List.sublist_append_left _ _)
    · intro g hg
      exact hp2.mem_iff.1 (List.mem_append_left _ hg)
  unfold geosToPlot
  cases national with
  | true =>
    simp only [if_true, true_or, true_and, Bool.true_eq_false, false_and, or_false, Except.ok.injEq,
      nationalGeo]
    exact eq_comm
  | false =>
    simp only [Bool.false_eq_true, if_false, false_or, true_and]
    cases geos with
    | nationalize =>
      simp only [Except.ok.injEq, nationalGeo, true_and, reduceCtorEq, false_and, exists_false, or_false]
      exact eq_comm
    | count n =>
      simp only [reduceCtorEq, false_and, false_or, or_false, Geos.count.injEq]
      by_cases hn : (all.length : ℤ) < n ∨ n ≤ 0
      · rw [if_pos hn]
        constructor
        · intro hh; cases hh
        · rintro ⟨m, rfl, h1, h2, _⟩
          omega
      · rw [if_neg hn]
        push Not at hn
        obtain ⟨m, rfl⟩ : ∃ m : ℕ, n = m := ⟨n.toNat, by omega⟩
        rw [hcheck]
        constructor
        · rintro ⟨h1, _⟩
          exact ⟨m, rfl, by omega, by omega, h1.symm⟩
        · rintro ⟨k, hk, _, _, hr⟩
          have hk : m = k := by exact_mod_cast hk
          subst hk
          refine ⟨hr.symm, ?_⟩
          rw [hr]
          exact htop m
    | names l =>
      simp only [reduceCtorEq, false_and, false_or, exists_false, Geos.names.injEq]
      exact hcheck l

example : geosToPlot false [("a", 1), ("b", 5), ("c", 3)] (.count 2) = .ok ["b", "c"] ∧
    geosToPlot false [("a", 1), ("b", 5), ("c", 3)] (.count 4) = .error .geoCount ∧
    geosToPlot false [("a", 1), ("b", 5), ("c", 3)] (.names ["c", "c"]) = .error .duplicateGeo ∧
    geosToPlot true [("a", 1)] (.names ["x"]) = .ok ["national_geo"] := by decide +kernel

/-- **C102.** The geos of a number are those with the largest populations. -/
theorem geos_largest (all : List (String × ℚ)) (h : (all.map Prod.fst).Nodup) (n : ℤ) (r : List String)
    (hr : geosToPlot false all (.count n) = .ok r) :
    (r.length : ℤ) = n ∧ ∃ top, r = top.map Prod.fst ∧ First (fun a b => b.2 ≤ a.2) r.length all top := by
  rcases (geos_exact false all h (.count n) r).1 hr with ⟨h1, _⟩ | ⟨_, m, hm, h1, h2, h3⟩ | ⟨_, h1, _⟩
  · simp at h1
  · injection hm with hm
    obtain ⟨top, rest, hp, he, hl, hs⟩ := Lookup.Props.top_geos all m
    rw [List.pairwise_append] at hs
    have hlen : r.length = m := by rw [h3, he, List.length_map, hl]; omega
    refine ⟨by rw [hlen, hm], top, h3.trans he, ?_, hs.1, rest, hp, hs.2.2⟩
    rw [hl, hlen]
  · cases h1

/-- **C102.** The chart of the knots needs two knots and marks the time and the KPI of each. -/
theorem knots_marked (series : List (String × ℚ)) (knots : List ℕ) (h : ∀ k ∈ knots, k < series.length) :
    (knotMarkers series knots = .error .knots ↔ knots.length < 2) ∧
    ∀ r, knotMarkers series knots = .ok r → r.length = knots.length ∧
      ∀ i : ℕ, ∀ k, knots[i]? = some k → r[i]? = series[k]? := by
  unfold knotMarkers
  by_cases h2 : knots.length < 2
  · simp [h2]
  · rw [if_neg h2]
    refine ⟨by simp [h2], ?_⟩
    intro r hr
    injection hr with hr
    subst hr
    clear h2
    induction knots with
    | nil => simp
    | cons k knots ih =>
      have hk := h k (List.mem_cons_self ..)
      obtain ⟨h1, h2⟩ := ih fun q hq => h q (List.mem_cons_of_mem _ hq)
      rw [List.filterMap_cons_some (List.getElem?_eq_getElem hk)]
      refine ⟨by simp [h1], ?_⟩
      intro i j hij
      cases i with
      | zero =>
        simp only [List.getElem?_cons_zero, Option.some.injEq] at hij
        subst hij
        rw [List.getElem?_cons_zero, List.getElem?_eq_getElem hk]
      | succ i =>
        rw [List.getElem?_cons_succ] at hij ⊢
        exact h2 i j hij

example : knotMarkers [("t0", 1), ("t1", 5), ("t2", 3)] [0, 2] = .ok [("t0", 1), ("t2", 3)] := by
  decide +kernel

end Verif.EdaCharts.Props

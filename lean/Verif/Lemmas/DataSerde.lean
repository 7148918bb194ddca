import Verif.Spec.DataSerde
import Verif.Lemmas.TimeCoordinates
import Mathlib.Tactic

/-!
# Lemmas on saving and loading input data
-/

namespace Verif.DataSerde.Lemmas

open Verif.DataSerde Verif.DataSerde.Spec Verif.Calendar

/-! ## Lists -/

theorem mapE_ok {α β : Type} {f : α → Except Err β} {g : α → β} {l : List α}
    (h : ∀ x ∈ l, f x = .ok (g x)) : mapE f l = .ok (l.map g) := by
  induction l with
  | nil => rfl
  | cons a l ih =>
    simp only [mapE, h a (by simp), ih fun x hx => h x (by simp [hx]), List.map_cons]

theorem foldl_appendNew_mem {l acc : List String} (h : ∀ x ∈ l, x ∈ acc) :
    l.foldl appendNew acc = acc := by
  induction l with
  | nil => rfl
  | cons a l ih =>
    rw [List.foldl_cons, appendNew, if_pos (h a (by simp))]
    exact ih fun x hx => h x (by simp [hx])

/-- Blocks of equal elements. -/
theorem foldl_appendNew_blocks {xs : List String} {f : String → List String} (acc : List String)
    (hn : xs.Nodup) (hd : ∀ x ∈ xs, x ∉ acc) (hne : ∀ x ∈ xs, f x ≠ [])
    (heq : ∀ x ∈ xs, ∀ y ∈ f x, y = x) :
    (xs.flatMap f).foldl appendNew acc = acc ++ xs := by
  induction xs generalizing acc with
  | nil => simp
  | cons a xs ih =>
    rw [List.flatMap_cons, List.foldl_append]
    have h1 : (f a).foldl appendNew acc = acc ++ [a] := by
      have hne' := hne a (by simp)
      have heq' := heq a (by simp)
      cases hf : f a with
      | nil => exact absurd hf hne'
      | cons b l =>
        rw [hf] at heq'
        have hb : b = a := heq' b (by simp)
        subst hb
        rw [List.foldl_cons, appendNew, if_neg (hd b (by simp))]
        exact foldl_appendNew_mem fun x hx => by rw [heq' x (by simp [hx])]; simp
    rw [h1, ih (acc ++ [a]) (List.nodup_cons.1 hn).2 ?_ (fun x hx => hne x (by simp [hx]))
      (fun x hx => heq x (by simp [hx]))]
    · simp
    · intro x hx hm
      rcases List.mem_append.1 hm with hm | hm
      · exact hd x (by simp [hx]) hm
      · rw [List.mem_singleton.1 hm] at hx
        exact (List.nodup_cons.1 hn).1 hx

theorem firsts_blocks {xs : List String} {f : String → List String} (hn : xs.Nodup)
    (hne : ∀ x ∈ xs, f x ≠ []) (heq : ∀ x ∈ xs, ∀ y ∈ f x, y = x) :
    firsts (xs.flatMap f) = xs := by
  have := foldl_appendNew_blocks (f := f) [] hn (by simp) hne heq
  simpa [firsts] using this

theorem mem_foldl_appendNew {l acc : List String} {x : String} :
    x ∈ l.foldl appendNew acc ↔ x ∈ acc ∨ x ∈ l := by
  induction l generalizing acc with
  | nil => simp
  | cons a l ih =>
    rw [List.foldl_cons, ih]
    unfold appendNew
    by_cases h : a ∈ acc
    · rw [if_pos h]
      simp only [List.mem_cons]
      constructor
      · rintro (h' | h')
        · exact .inl h'
        · exact .inr (.inr h')
      · rintro (h' | h' | h')
        · exact .inl h'
        · exact .inl (h' ▸ h)
        · exact .inr h'
    · rw [if_neg h]
      simp only [List.mem_append, List.mem_cons, List.not_mem_nil, or_false]
      tauto

/-- The same elements again and again. -/
theorem firsts_repeat {α : Type} {xs : List α} {f : α → List String} {ys : List String}
    (hne : xs ≠ []) (h : ∀ x ∈ xs, firsts (f x) = ys) : firsts (xs.flatMap f) = ys := by
  cases xs with
  | nil => exact absurd rfl hne
  | cons a xs =>
    rw [List.flatMap_cons, firsts, List.foldl_append]
    have h1 : (f a).foldl appendNew [] = ys := h a (by simp)
    rw [h1]
    refine foldl_appendNew_mem ?_
    intro x hx
    obtain ⟨b, hb, hxb⟩ := List.mem_flatMap.1 hx
    have h2 : (f b).foldl appendNew [] = ys := h b (by simp [hb])
    rw [← h2, mem_foldl_appendNew]
    exact .inr hxb

/-! ## Dictionaries -/

theorem get_put {β : Type} (k k' : String) (v : β) (l : List (String × β)) :
    get k' (put k v l) = if k' = k then some v else get k' l := by
  induction l with
  | nil =>
    simp only [put, get]
    by_cases h : k = k'
    · rw [if_pos h, if_pos h.symm]
    · rw [if_neg h, if_neg fun h' => h h'.symm]
  | cons p l ih =>
    obtain ⟨a, w⟩ := p
    simp only [put]
    by_cases h : a = k
    · rw [if_pos h]
      simp only [get]
      subst h
      by_cases h' : a = k'
      · rw [if_pos h', if_pos h'.symm]
      · rw [if_neg h', if_neg fun h => h' h.symm, if_neg h']
    · rw [if_neg h]
      simp only [get, ih]
      by_cases h' : a = k'
      · rw [if_pos h', if_pos h']
        rw [if_neg]
        rintro rfl
        exact h h'
      · rw [if_neg h', if_neg h']

theorem put_new {β : Type} {k : String} {v : β} {l : List (String × β)} (h : k ∉ l.map Prod.fst) :
    put k v l = l ++ [(k, v)] := by
  induction l with
  | nil => rfl
  | cons p l ih =>
    obtain ⟨a, w⟩ := p
    rw [List.map_cons, List.mem_cons, not_or] at h
    simp only [put]
    rw [if_neg fun h' => h.1 h'.symm, ih h.2]
    rfl

/-- Filling a dictionary with different keys. -/
theorem foldl_put {α β : Type} {key : α → String} {val : α → β} (l : List α)
    (acc : List (String × β)) (hn : (acc.map Prod.fst ++ l.map key).Nodup) :
    l.foldl (fun acc x => put (key x) (val x) acc) acc = acc ++ l.map fun x => (key x, val x) := by
  induction l generalizing acc with
  | nil => simp
  | cons a l ih =>
    rw [List.foldl_cons, put_new, ih]
    · simp
    · simpa using hn
    · intro h
      rw [List.map_cons, List.nodup_append] at hn
      exact hn.2.2 _ h _ (by simp) rfl

theorem get_map {α β : Type} {key : α → String} {val : α → β} {l : List α} {a : α} (ha : a ∈ l)
    (hn : (l.map key).Nodup) : get (key a) (l.map fun x => (key x, val x)) = some (val a) := by
  induction l with
  | nil => cases ha
  | cons b l ih =>
    rw [List.map_cons]
    simp only [get]
    rw [List.map_cons, List.nodup_cons] at hn
    rcases List.mem_cons.1 ha with rfl | ha
    · rw [if_pos rfl]
    · rw [if_neg, ih ha hn.2]
      intro h
      exact hn.1 (h ▸ List.mem_map.2 ⟨a, ha, rfl⟩)

/-! ## Selecting -/

/-- The row of a label. -/
def at' {α : Type} (labels : List String) (rows : List α) (dflt : α) (x : String) : α :=
  (((labels.zip rows).find? fun p => p.1 == x).map Prod.snd).getD dflt

theorem at_cons_self {α : Type} (l : String) (labels : List String) (r : α) (rows : List α)
    (dflt : α) : at' (l :: labels) (r :: rows) dflt l = r := by
  simp [at']

theorem at_cons_ne {α : Type} {l x : String} (labels : List String) (r : α) (rows : List α)
    (dflt : α) (h : l ≠ x) : at' (l :: labels) (r :: rows) dflt x = at' labels rows dflt x := by
  simp [at', h]

theorem at_mem {α : Type} {labels : List String} {rows : List α} {dflt : α} {x : String}
    (hl : rows.length = labels.length) (hx : x ∈ labels) : at' labels rows dflt x ∈ rows := by
  induction labels generalizing rows with
  | nil => cases hx
  | cons l labels ih =>
    cases rows with
    | nil => cases hl
    | cons r rows =>
      by_cases h : l = x
      · subst h; rw [at_cons_self]; simp
      · rw [at_cons_ne _ _ _ _ h]
        refine List.mem_cons_of_mem _ (ih (by simpa using hl) ?_)
        rcases List.mem_cons.1 hx with h' | h'
        · exact absurd h'.symm h
        · exact h'

theorem map_at {α : Type} {labels : List String} {rows : List α} (dflt : α)
    (hl : rows.length = labels.length) (hn : labels.Nodup) :
    labels.map (at' labels rows dflt) = rows := by
  induction labels generalizing rows with
  | nil => cases rows with
    | nil => rfl
    | cons r rows => cases hl
  | cons l labels ih =>
    cases rows with
    | nil => cases hl
    | cons r rows =>
      rw [List.map_cons, at_cons_self]
      have h : labels.map (at' (l :: labels) (r :: rows) dflt) = labels.map (at' labels rows dflt) := by
        refine List.map_congr_left fun x hx => at_cons_ne _ _ _ _ ?_
        rintro rfl
        exact (List.nodup_cons.1 hn).1 hx
      rw [h, ih (by simpa using hl) (List.nodup_cons.1 hn).2]

theorem filter_zip_nil {α : Type} {labels : List String} (rows : List α) {x : String}
    (hx : x ∉ labels) : ((labels.zip rows).filter fun p => p.1 == x) = [] := by
  rw [List.filter_eq_nil_iff]
  intro p hp h
  have := (List.of_mem_zip hp).1
  rw [beq_iff_eq] at h
  exact hx (h ▸ this)

theorem filter_zip {α : Type} {labels : List String} {rows : List α} (dflt : α) {x : String}
    (hl : rows.length = labels.length) (hn : labels.Nodup) (hx : x ∈ labels) :
    ((labels.zip rows).filter fun p => p.1 == x) = [(x, at' labels rows dflt x)] := by
  induction labels generalizing rows with
  | nil => cases hx
  | cons l labels ih =>
    cases rows with
    | nil => cases hl
    | cons r rows =>
      rw [List.zip_cons_cons]
      by_cases h : l = x
      · subst h
        rw [List.filter_cons_of_pos (p := fun p : String × α => p.1 == l) (by simp),
          filter_zip_nil _ (List.nodup_cons.1 hn).1, at_cons_self]
      · rw [List.filter_cons_of_neg (p := fun p : String × α => p.1 == x) (by simpa using h),
          at_cons_ne _ _ _ _ h]
        refine ih (by simpa using hl) (List.nodup_cons.1 hn).2 ?_
        rcases List.mem_cons.1 hx with h' | h'
        · exact absurd h'.symm h
        · exact h'

theorem sel_ok {α : Type} {labels : List String} {rows : List α} (dflt : α) {x : String}
    (hl : rows.length = labels.length) (hn : labels.Nodup) (hx : x ∈ labels) :
    sel labels rows x = .ok (at' labels rows dflt x) := by
  unfold sel
  rw [filter_zip dflt hl hn hx]

/-! ## Cells of arrays -/

/-- The cell of an array. -/
def cell3 (a : Arr3) (g t k : String) : Num :=
  at' a.keys (at' a.times (at' a.geos a.vals [] g) [] t) none k

/-- The cell of an array. -/
def cell2 (a : Arr2) (g t : String) : Num := at' a.times (at' a.geos a.vals [] g) none t

section Shapes

variable {geos times : List String} {g t k : String}

theorem row_ok {a : Arr3} (h : Shape3 geos times a) (hg : geos.Nodup) (ht : times.Nodup)
    (mg : g ∈ geos) (mt : t ∈ times) :
    a.row g t = .ok (a.keys.map fun k => cell3 a g t k) := by
  unfold Arr3.row
  rw [sel_ok ([] : List (List Num)) (by rw [h.rows, h.geos]) (by rw [h.geos]; exact hg)
    (by rw [h.geos]; exact mg)]
  have hr : at' a.geos a.vals [] g ∈ a.vals := at_mem (by rw [h.rows, h.geos]) (by rw [h.geos]; exact mg)
  show sel a.times (at' a.geos a.vals [] g) t = _
  rw [sel_ok ([] : List Num) (by rw [h.cols _ hr, h.times]) (by rw [h.times]; exact ht)
    (by rw [h.times]; exact mt)]
  have hc : at' a.times (at' a.geos a.vals [] g) [] t ∈ at' a.geos a.vals [] g :=
    at_mem (by rw [h.cols _ hr, h.times]) (by rw [h.times]; exact mt)
  congr 1
  exact (map_at none (h.cells _ hr _ hc) h.distinct).symm

theorem cell_ok {a : Arr3} (h : Shape3 geos times a) (hg : geos.Nodup) (ht : times.Nodup)
    (mg : g ∈ geos) (mt : t ∈ times) (mk : k ∈ a.keys) : a.cell g t k = .ok (cell3 a g t k) := by
  unfold Arr3.cell
  rw [row_ok h hg ht mg mt]
  show sel a.keys (a.keys.map fun k => cell3 a g t k) k = _
  rw [sel_ok none (by simp) h.distinct mk]
  congr 1
  clear h
  generalize a.keys = ks at mk
  generalize cell3 a g t = f
  induction ks with
  | nil => cases mk
  | cons b ks ih =>
    rw [List.map_cons]
    by_cases hb : b = k
    · subst hb; rw [at_cons_self]
    · rw [at_cons_ne _ _ _ _ hb]
      refine ih ?_
      rcases List.mem_cons.1 mk with h' | h'
      · exact absurd h'.symm hb
      · exact h'

theorem entries_ok {a : Arr3} (h : Shape3 geos times a) (hg : geos.Nodup) (ht : times.Nodup)
    (mg : g ∈ geos) (mt : t ∈ times) :
    a.entries g t = .ok (a.keys.map fun k => (k, cell3 a g t k)) := by
  unfold Arr3.entries
  rw [row_ok h hg ht mg mt]
  show Except.ok (a.keys.zip (a.keys.map fun k => cell3 a g t k)) = _
  congr 1
  exact List.map_prod_left_eq_zip.symm

theorem cell2_ok {a : Arr2} (h : Shape2 geos times a) (hg : geos.Nodup) (ht : times.Nodup)
    (mg : g ∈ geos) (mt : t ∈ times) : a.cell g t = .ok (cell2 a g t) := by
  unfold Arr2.cell
  rw [sel_ok ([] : List Num) (by rw [h.rows, h.geos]) (by rw [h.geos]; exact hg)
    (by rw [h.geos]; exact mg)]
  have hr : at' a.geos a.vals [] g ∈ a.vals := at_mem (by rw [h.rows, h.geos]) (by rw [h.geos]; exact mg)
  show sel a.times (at' a.geos a.vals [] g) t = _
  rw [sel_ok none (by rw [h.cols _ hr, h.times]) (by rw [h.times]; exact ht)
    (by rw [h.times]; exact mt)]
  rfl

/-- An array is the table of its cells. -/
theorem eq_table3 {a : Arr3} (h : Shape3 geos times a) (hg : geos.Nodup) (ht : times.Nodup) :
    a = ⟨geos, times, a.keys, geos.map fun g => times.map fun t => a.keys.map fun k =>
      cell3 a g t k⟩ := by
  have hv : a.vals = geos.map fun g => times.map fun t => a.keys.map fun k => cell3 a g t k := by
    conv_lhs => rw [← map_at (labels := geos) (rows := a.vals) [] h.rows hg]
    refine List.map_congr_left fun g mg => ?_
    have hr : at' geos a.vals [] g ∈ a.vals := at_mem h.rows mg
    conv_lhs => rw [← map_at (labels := times) (rows := at' geos a.vals [] g) [] (h.cols _ hr) ht]
    refine List.map_congr_left fun t mt => ?_
    have hc : at' times (at' geos a.vals [] g) [] t ∈ at' geos a.vals [] g :=
      at_mem (h.cols _ hr) mt
    conv_lhs => rw [← map_at (labels := a.keys) none (h.cells _ hr _ hc) h.distinct]
    unfold cell3
    rw [h.geos, h.times]
  obtain ⟨ag, at_, ak, av⟩ := a
  have h1 := h.geos
  have h2 := h.times
  simp only at h1 h2 hv
  subst h1 h2
  rw [Arr3.mk.injEq]
  exact ⟨rfl, rfl, rfl, hv⟩

/-- An array is the table of its cells. -/
theorem eq_table2 {a : Arr2} (h : Shape2 geos times a) (hg : geos.Nodup) (ht : times.Nodup) :
    a = ⟨geos, times, geos.map fun g => times.map fun t => cell2 a g t⟩ := by
  have hv : a.vals = geos.map fun g => times.map fun t => cell2 a g t := by
    conv_lhs => rw [← map_at (labels := geos) (rows := a.vals) [] h.rows hg]
    refine List.map_congr_left fun g mg => ?_
    have hr : at' geos a.vals [] g ∈ a.vals := at_mem h.rows mg
    conv_lhs => rw [← map_at (labels := times) (rows := at' geos a.vals [] g) none (h.cols _ hr) ht]
    refine List.map_congr_left fun t _ => ?_
    unfold cell2
    rw [h.geos, h.times]
  obtain ⟨ag, at_, av⟩ := a
  have h1 := h.geos
  have h2 := h.times
  simp only at h1 h2 hv
  subst h1 h2
  rw [Arr2.mk.injEq]
  exact ⟨rfl, rfl, hv⟩

theorem cell_mem {a : Arr3} (h : Shape3 geos times a) (mg : g ∈ geos) (mt : t ∈ times)
    (mk : k ∈ a.keys) : ∃ r ∈ a.vals, ∃ c ∈ r, cell3 a g t k ∈ c := by
  have hr : at' a.geos a.vals [] g ∈ a.vals := at_mem (by rw [h.rows, h.geos]) (by rw [h.geos]; exact mg)
  have hc : at' a.times (at' a.geos a.vals [] g) [] t ∈ at' a.geos a.vals [] g :=
    at_mem (by rw [h.cols _ hr, h.times]) (by rw [h.times]; exact mt)
  exact ⟨_, hr, _, hc, at_mem (h.cells _ hr _ hc) mk⟩

end Shapes

/-! ## Making arrays from cells -/

/-- All cells of a table. -/
def cells3 (geos times keys : List String) (v : String → String → String → Num) : List Rec3 :=
  geos.flatMap fun g => times.flatMap fun t => keys.map fun k => (g, t, k, v g t k)

/-- All cells of a table. -/
def cells2 (geos times : List String) (v : String → String → Num) : List Rec2 :=
  geos.flatMap fun g => times.map fun t => (g, t, v g t)

theorem mem_cells3 {geos times keys : List String} {v : String → String → String → Num} {r : Rec3} :
    r ∈ cells3 geos times keys v ↔ r.1 ∈ geos ∧ r.2.1 ∈ times ∧ r.2.2.1 ∈ keys ∧
      r.2.2.2 = v r.1 r.2.1 r.2.2.1 := by
  obtain ⟨g, t, k, x⟩ := r
  simp only [cells3, List.mem_flatMap, List.mem_map, Prod.mk.injEq]
  constructor
  · rintro ⟨g', hg, t', ht, k', hk, rfl, rfl, rfl, rfl⟩
    exact ⟨hg, ht, hk, rfl⟩
  · rintro ⟨hg, ht, hk, rfl⟩
    exact ⟨g, hg, t, ht, k, hk, rfl, rfl, rfl, rfl⟩

theorem mem_cells2 {geos times : List String} {v : String → String → Num} {r : Rec2} :
    r ∈ cells2 geos times v ↔ r.1 ∈ geos ∧ r.2.1 ∈ times ∧ r.2.2 = v r.1 r.2.1 := by
  obtain ⟨g, t, x⟩ := r
  simp only [cells2, List.mem_flatMap, List.mem_map, Prod.mk.injEq]
  constructor
  · rintro ⟨g', hg, t', ht, rfl, rfl, rfl⟩
    exact ⟨hg, ht, rfl⟩
  · rintro ⟨hg, ht, rfl⟩
    exact ⟨g, hg, t, ht, rfl, rfl, rfl⟩

theorem value3_eq {rs : List Rec3} {g t k : String} {x : Num} (hm : (g, t, k, x) ∈ rs)
    (hu : ∀ y, (g, t, k, y) ∈ rs → y = x) : value3 rs g t k = x := by
  unfold value3
  cases hf : rs.reverse.find? fun r => r.1 == g && r.2.1 == t && r.2.2.1 == k with
  | none =>
    rw [List.find?_eq_none] at hf
    exact absurd (hf (g, t, k, x) (by simpa using hm)) (by simp)
  | some r =>
    obtain ⟨g', t', k', y⟩ := r
    have h1 := List.find?_some hf
    have h2 := List.mem_of_find?_eq_some hf
    simp only [Bool.and_eq_true, beq_iff_eq] at h1
    obtain ⟨⟨rfl, rfl⟩, rfl⟩ := h1
    exact hu y (by simpa using h2)

theorem value2_eq {rs : List Rec2} {g t : String} {x : Num} (hm : (g, t, x) ∈ rs)
    (hu : ∀ y, (g, t, y) ∈ rs → y = x) : value2 rs g t = x := by
  unfold value2
  cases hf : rs.reverse.find? fun r => r.1 == g && r.2.1 == t with
  | none =>
    rw [List.find?_eq_none] at hf
    exact absurd (hf (g, t, x) (by simpa using hm)) (by simp)
  | some r =>
    obtain ⟨g', t', y⟩ := r
    have h1 := List.find?_some hf
    have h2 := List.mem_of_find?_eq_some hf
    simp only [Bool.and_eq_true, beq_iff_eq] at h1
    obtain ⟨rfl, rfl⟩ := h1
    exact hu y (by simpa using h2)

theorem extract3_cells {geos times keys : List String} {v : String → String → String → Num}
    (hg : geos.Nodup) (ht : times.Nodup) (hk : keys.Nodup) (ng : geos ≠ []) (nt : times ≠ [])
    (nk : keys ≠ []) :
    extract3 (cells3 geos times keys v) = some ⟨geos, times, keys,
      geos.map fun g => times.map fun t => keys.map fun k => v g t k⟩ := by
  obtain ⟨g0, hg0⟩ := List.exists_mem_of_ne_nil _ ng
  obtain ⟨t0, ht0⟩ := List.exists_mem_of_ne_nil _ nt
  obtain ⟨k0, hk0⟩ := List.exists_mem_of_ne_nil _ nk
  have hne : cells3 geos times keys v ≠ [] :=
    List.ne_nil_of_mem (a := (g0, t0, k0, v g0 t0 k0)) (mem_cells3.2 ⟨hg0, ht0, hk0, rfl⟩)
  have h1 : firsts ((cells3 geos times keys v).map fun r => r.1) = geos := by
    unfold cells3
    rw [List.map_flatMap]
    refine firsts_blocks hg (fun g _ => ?_) fun g _ y hy => ?_
    · refine List.ne_nil_of_mem (a := g) (List.mem_map.2 ⟨(g, t0, k0, v g t0 k0), ?_, rfl⟩)
      exact List.mem_flatMap.2 ⟨t0, ht0, List.mem_map.2 ⟨k0, hk0, rfl⟩⟩
    · obtain ⟨r, hr, rfl⟩ := List.mem_map.1 hy
      obtain ⟨t, -, hr⟩ := List.mem_flatMap.1 hr
      obtain ⟨k, -, rfl⟩ := List.mem_map.1 hr
      rfl
  have h2 : firsts ((cells3 geos times keys v).map fun r => r.2.1) = times := by
    unfold cells3
    rw [List.map_flatMap]
    refine firsts_repeat ng fun g _ => ?_
    rw [List.map_flatMap]
    refine firsts_blocks ht (fun t _ => ?_) fun t _ y hy => ?_
    · simpa using nk
    · obtain ⟨r, hr, rfl⟩ := List.mem_map.1 hy
      obtain ⟨k, -, rfl⟩ := List.mem_map.1 hr
      rfl
  have h3 : firsts ((cells3 geos times keys v).map fun r => r.2.2.1) = keys := by
    unfold cells3
    rw [List.map_flatMap]
    refine firsts_repeat ng fun g _ => ?_
    rw [List.map_flatMap]
    refine firsts_repeat nt fun t _ => ?_
    rw [List.map_map]
    have : keys.map ((fun r : Rec3 => r.2.2.1) ∘ fun k => (g, t, k, v g t k)) =
        keys.flatMap fun k => [k] := by
      rw [List.flatMap_singleton']
      exact List.map_id' _
    rw [this]
    exact firsts_blocks hk (fun k _ => by simp) fun k _ y hy => by simpa using hy
  unfold extract3
  rw [if_neg hne, h1, h2, h3]
  simp only [Option.some.injEq, Arr3.mk.injEq, true_and]
  refine List.map_congr_left fun g mg => List.map_congr_left fun t mt =>
    List.map_congr_left fun k mk => ?_
  refine value3_eq (mem_cells3.2 ⟨mg, mt, mk, rfl⟩) fun y hy => ?_
  exact (mem_cells3.1 hy).2.2.2

theorem extract2_cells {geos times : List String} {v : String → String → Num}
    (hg : geos.Nodup) (ht : times.Nodup) (ng : geos ≠ []) (nt : times ≠ []) :
    extract2 (cells2 geos times v) = some ⟨geos, times,
      geos.map fun g => times.map fun t => v g t⟩ := by
  obtain ⟨g0, hg0⟩ := List.exists_mem_of_ne_nil _ ng
  obtain ⟨t0, ht0⟩ := List.exists_mem_of_ne_nil _ nt
  have hne : cells2 geos times v ≠ [] :=
    List.ne_nil_of_mem (a := (g0, t0, v g0 t0)) (mem_cells2.2 ⟨hg0, ht0, rfl⟩)
  have h1 : firsts ((cells2 geos times v).map fun r => r.1) = geos := by
    unfold cells2
    rw [List.map_flatMap]
    refine firsts_blocks hg (fun g _ => by simpa using nt) fun g _ y hy => ?_
    obtain ⟨r, hr, rfl⟩ := List.mem_map.1 hy
    obtain ⟨t, -, rfl⟩ := List.mem_map.1 hr
    rfl
  have h2 : firsts ((cells2 geos times v).map fun r => r.2.1) = times := by
    unfold cells2
    rw [List.map_flatMap]
    refine firsts_repeat ng fun g _ => ?_
    rw [List.map_map]
    have : times.map ((fun r : Rec2 => r.2.1) ∘ fun t => (g, t, v g t)) =
        times.flatMap fun t => [t] := by
      rw [List.flatMap_singleton']
      exact List.map_id' _
    rw [this]
    exact firsts_blocks ht (fun k _ => by simp) fun k _ y hy => by simpa using hy
  unfold extract2
  rw [if_neg hne, h1, h2]
  simp only [Option.some.injEq, Arr2.mk.injEq, true_and]
  refine List.map_congr_left fun g mg => List.map_congr_left fun t mt => ?_
  refine value2_eq (mem_cells2.2 ⟨mg, mt, rfl⟩) fun y hy => ?_
  exact (mem_cells2.1 hy).2.2

/-! ## Times -/

theorem filter_sublist {ts mt : List String} (h : ts.Sublist mt) (hn : mt.Nodup) :
    mt.filter (fun t => decide (t ∈ ts)) = ts := by
  induction h with
  | slnil => rfl
  | cons a h ih =>
    rw [List.nodup_cons] at hn
    rw [List.filter_cons_of_neg (by simpa using fun hm => hn.1 (h.subset hm)), ih hn.2]
  | @cons_cons l₁ l₂ a h ih =>
    rw [List.nodup_cons] at hn
    rw [List.filter_cons_of_pos (by simp)]
    congr 1
    rw [← ih hn.2]
    refine List.filter_congr fun x hx => ?_
    have hxa : x ≠ a := fun e => hn.1 (e ▸ hx)
    simp only [List.mem_cons, hxa, false_or]
    rw [ih hn.2]

theorem flatMap_if {α : Type} {ts mt : List String} (h : ts.Sublist mt) (hn : mt.Nodup)
    (f : String → List α) :
    (mt.flatMap fun t => if t ∈ ts then f t else []) = ts.flatMap f := by
  conv_rhs => rw [← filter_sublist h hn]
  clear h hn
  induction mt with
  | nil => rfl
  | cons a mt ih =>
    rw [List.flatMap_cons, ih]
    by_cases h : a ∈ ts
    · rw [if_pos h, List.filter_cons_of_pos (by simpa using h), List.flatMap_cons]
    · rw [if_neg h, List.filter_cons_of_neg (by simpa using h), List.nil_append]

theorem isRegular_of_axis {dates : List CDate} (h : Axis dates) :
    TimeCoordinates.isRegular dates = true := by
  rw [TimeCoordinates.isRegular_iff]
  rcases h.even with ⟨k, hk⟩ | h2 | h2 | h2
  · left
    refine ⟨k, fun g hg => ?_⟩
    obtain ⟨a, b, hn, rfl⟩ := TimeCoordinates.mem_intervalDays.1 hg
    exact hk a b hn
  · right; left
    rw [TimeCoordinates.allIn_iff]
    intro a b hn
    have := h2 a b hn
    simp only [TimeCoordinates.monthly, List.mem_cons, List.not_mem_nil, or_false]
    omega
  · right; right; left
    rw [TimeCoordinates.allIn_iff]
    intro a b hn
    have := h2 a b hn
    simp only [TimeCoordinates.quarterly, List.mem_cons, List.not_mem_nil, or_false]
    omega
  · right; right; right
    rw [TimeCoordinates.allIn_iff]
    intro a b hn
    have := h2 a b hn
    simp only [TimeCoordinates.yearly, List.mem_cons, List.not_mem_nil, or_false]
    omega

end Verif.DataSerde.Lemmas

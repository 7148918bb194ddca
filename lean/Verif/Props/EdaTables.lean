import Verif.Model.EdaTables
import Verif.Spec.EdaTables
import Verif.Props.EdaStack
import Mathlib.Tactic.Linarith

namespace Verif.EdaTables.Props

open Verif.EdaStack Verif.EdaStack.Spec Verif.EdaTables Verif.EdaTables.Spec

variable {σ κ α : Type}

theorem mem_distinct (l : List String) (n : String) : n ∈ distinctNames l ↔ n ∈ l := by
  induction l with
  | nil => simp [distinctNames]
  | cons e rest ih =>
    simp only [distinctNames, List.mem_cons, List.mem_filter, ih, decide_eq_true_eq]
    by_cases h : n = e <;> simp [h]

theorem nodup_distinct (l : List String) : (distinctNames l).Nodup := by
  induction l with
  | nil => simp [distinctNames]
  | cons e rest ih =>
    simp only [distinctNames, List.nodup_cons, List.mem_filter]
    exact ⟨by simp, ih.filter _⟩

theorem distinct_of_nodup {l : List String} (h : l.Nodup) : distinctNames l = l := by
  induction l with
  | nil => rfl
  | cons e rest ih =>
    obtain ⟨h1, h2⟩ := List.nodup_cons.1 h
    simp only [distinctNames, ih h2]
    congr 1
    rw [List.filter_eq_self]
    intro a ha
    simp only [ne_eq, decide_not, Bool.not_eq_eq_eq_not, Bool.not_true, decide_eq_false_iff_not]
    rintro rfl
    exact h1 ha

theorem length_distinct_le (l : List String) : (distinctNames l).length ≤ l.length := by
  induction l with
  | nil => simp [distinctNames]
  | cons e rest ih =>
    simp only [distinctNames, List.length_cons]
    have := List.length_filter_le (fun b => decide (b ≠ e)) (distinctNames rest)
    omega

theorem nodup_of_length {l : List String} (h : (distinctNames l).length = l.length) : l.Nodup := by
  induction l with
  | nil => simp
  | cons e rest ih =>
    simp only [distinctNames, List.length_cons] at h
    have h1 := List.length_filter_le (fun b => decide (b ≠ e)) (distinctNames rest)
    have h2 := length_distinct_le rest
    have h3 : (distinctNames rest).length = rest.length := by omega
    refine List.nodup_cons.2 ⟨fun he => ?_, ih h3⟩
    have h4 : ((distinctNames rest).filter fun b => decide (b ≠ e)).length = (distinctNames rest).length := by omega
    have h5 := (List.filter_eq_self.1 (List.filter_sublist.eq_of_length h4)) e ((mem_distinct _ _).2 he)
    simp at h5

/-- **C119 (own values).** If the names differ, each variable has one value, made of its own series. -/
theorem own_values (f : List σ → Option κ) (stacked : List (String × σ))
    (h : (stacked.map Prod.fst).Nodup) : byName f stacked = stacked.map fun x => (x.1, f [x.2]) := by
  unfold byName
  rw [distinct_of_nodup h, List.map_map]
  apply List.map_congr_left
  intro x hx
  simp only [Function.comp_apply, Prod.mk.injEq, true_and]
  have : (stacked.filter fun y => decide (y.1 = x.1)) = [x] := by
    clear f
    induction stacked with
    | nil => cases hx
    | cons y rest ih =>
      simp only [List.map_cons, List.nodup_cons] at h
      rcases List.mem_cons.1 hx with rfl | hx'
      · rw [List.filter_cons_of_pos (by simp)]
        congr 1
        rw [List.filter_eq_nil_iff]
        intro z hz
        simp only [decide_eq_true_eq]
        intro e
        exact h.1 (e ▸ List.mem_map_of_mem hz)
      · rw [List.filter_cons_of_neg, ih h.2 hx']
        simp only [decide_eq_true_eq]
        intro e
        exact h.1 (e ▸ List.mem_map_of_mem hx')
  rw [this]
  rfl

/-- **C119 (names).** The input data is accepted exactly if the names of the channels of all kinds, without
the controls, differ. -/
theorem accepted_iff (p : Data α) : namesAccepted p = true ↔
    ((channels p [.mediaChannel, .rfChannel, .organicMediaChannel, .organicRfChannel,
      .nonMediaChannel]).map Prod.fst).Nodup := by
  have e : allChannels p = (channels p [.mediaChannel, .rfChannel, .organicMediaChannel, .organicRfChannel,
      .nonMediaChannel]).map Prod.fst := by
    simp [allChannels, channels, namesOf]
  unfold namesAccepted
  rw [beq_iff_eq, e]
  exact ⟨nodup_of_length, fun h => by rw [distinct_of_nodup h]⟩

/-- **C119 (each variable).** With accepted names of channels, and names of controls that differ from each
other and from the channels, each channel and control has one value of its own. -/
theorem values_of_variables (f : List α → Option κ) (sample : List Dim) (hs : ∀ d ∈ sample, Kept d) (p : Data α)
    (hp : SomePresent p [.mediaChannel, .rfChannel, .organicMediaChannel, .organicRfChannel, .controlVariable,
      .nonMediaChannel])
    (ha : namesAccepted p = true) (hc : (((p .controlVariable).getD []).map Prod.fst).Nodup)
    (hd : ∀ c ∈ (p .controlVariable).getD [], ∀ x ∈ channels p [.mediaChannel, .rfChannel,
      .organicMediaChannel, .organicRfChannel, .nonMediaChannel], x.1 ≠ c.1) :
    ∃ stacked, stackVariables (merge (coordsOf p) (treatmentControl sample p)) = .ok stacked ∧
      byName f stacked = (channels p [.mediaChannel, .rfChannel, .organicMediaChannel, .organicRfChannel,
        .controlVariable, .nonMediaChannel]).map fun x => (x.1, f [x.2]) := by
  refine ⟨_, EdaStack.Props.treatment_control_rows sample hs p hp, own_values f _ ?_⟩
  have h1 := (accepted_iff p).1 ha
  have hperm : ((channels p [.mediaChannel, .rfChannel, .organicMediaChannel, .organicRfChannel,
        .controlVariable, .nonMediaChannel]).map Prod.fst).Perm
      (((p .controlVariable).getD []).map Prod.fst ++ (channels p [.mediaChannel, .rfChannel,
        .organicMediaChannel, .organicRfChannel, .nonMediaChannel]).map Prod.fst) := by
    rw [← List.map_append]
    apply List.Perm.map
    simp only [channels, List.flatMap_cons, List.flatMap_nil, List.append_nil]
    generalize (p .mediaChannel).getD [] = a
    generalize (p .rfChannel).getD [] = b
    generalize (p .organicMediaChannel).getD [] = c
    generalize (p .organicRfChannel).getD [] = d
    generalize (p .controlVariable).getD [] = e
    generalize (p .nonMediaChannel).getD [] = g
    have : (a ++ (b ++ (c ++ (d ++ (e ++ g))))) = (a ++ b ++ c ++ d) ++ (e ++ g) := by simp
    rw [this]
    have : e ++ (a ++ (b ++ (c ++ (d ++ g)))) = (e ++ (a ++ b ++ c ++ d)) ++ g := by simp
    rw [this, ← List.append_assoc]
    exact List.perm_append_comm.append_right g
  rw [hperm.nodup_iff, List.nodup_append]
  refine ⟨hc, h1, ?_⟩
  intro n hn m hm
  obtain ⟨c, hcm, rfl⟩ := List.mem_map.1 hn
  obtain ⟨x, hx, rfl⟩ := List.mem_map.1 hm
  exact (hd c hcm x hx).symm

/-- **Finding.**  A control may have the name of a channel: the data is accepted, and the table has one value
for the two, made of both series. -/
theorem pooled (f : List ℕ → Option κ) : ∃ p : Data ℕ, namesAccepted p = true ∧
    ∃ stacked, stackVariables (merge (coordsOf p) (treatmentControl [.geo, .time] p)) = .ok stacked ∧
      stacked = [("TV", 1), ("TV", 2)] ∧ byName f stacked = [("TV", f [1, 2])] := by
  refine ⟨fun d => if d = .mediaChannel then some [("TV", 1)] else
    if d = .controlVariable then some [("TV", 2)] else none, by decide, _, rfl, rfl, ?_⟩
  rfl

/-! ### The rows -/

theorem notAfter_iff [LinearOrder κ] (a b : String × Option κ) : notAfter a b = true ↔ AtLeast a.2 b.2 := by
  obtain ⟨n, a⟩ := a
  obtain ⟨m, b⟩ := b
  cases a <;> cases b <;> simp [notAfter, AtLeast]

/-- **C119 (rows).** A table shows the five largest values, largest first and missing ones last, or all if
there are fewer. -/
theorem rows_largest [LinearOrder κ] (values : List (String × Option κ)) :
    ∃ rest, Largest values (tableRows values) rest := by
  have ht : ∀ a b : String × Option κ, AtLeast a.2 b.2 ∨ AtLeast b.2 a.2 := by
    rintro ⟨n, a⟩ ⟨m, b⟩
    cases a <;> cases b <;> simp [AtLeast, le_total]
  have htr : ∀ a b c : String × Option κ, AtLeast a.2 b.2 → AtLeast b.2 c.2 → AtLeast a.2 c.2 := by
    rintro ⟨n, a⟩ ⟨m, b⟩ ⟨k, c⟩ h1 h2
    cases a <;> cases b <;> cases c <;> simp_all [AtLeast]
    exact le_trans h2 h1
  let r : String × Option κ → String × Option κ → Prop := fun a b => notAfter a b = true
  have : Std.Total r := ⟨fun a b => by simpa [r, notAfter_iff] using ht a b⟩
  have : IsTrans _ r := ⟨fun a b c h1 h2 => by
    simp only [r, notAfter_iff] at h1 h2 ⊢
    exact htr a b c h1 h2⟩
  have hsorted : (values.insertionSort r).Pairwise r := List.pairwise_insertionSort r values
  have hsplit : (values.insertionSort r).take displayLimit ++ (values.insertionSort r).drop displayLimit =
      values.insertionSort r := List.take_append_drop _ _
  rw [← hsplit, List.pairwise_append] at hsorted
  refine ⟨(values.insertionSort r).drop displayLimit, ?_, ?_, ?_, ?_⟩
  · show ((values.insertionSort r).take displayLimit ++ _).Perm values
    rw [hsplit]
    exact List.perm_insertionSort r values
  · exact hsorted.1.imp fun h => (notAfter_iff _ _).1 h
  · intro a ha b hb
    exact (notAfter_iff _ _).1 (hsorted.2.2 a ha b hb)
  · show ((values.insertionSort r).take displayLimit).length = _
    rw [List.length_take, List.length_insertionSort]
    rfl

/-- **C119 (note).** The note appears exactly if not all values are shown, and says how many there are. -/
theorem note_iff [LinearOrder κ] (values : List (String × Option κ)) (n : ℕ) :
    tableNote values = some n ↔ (tableRows values).length < values.length ∧ n = values.length := by
  have hl : (tableRows values).length = min 5 values.length := by
    obtain ⟨_, h⟩ := rows_largest values
    exact h.count
  unfold tableNote
  rw [hl]
  split
  · next h =>
    have h' : values.length ≤ 5 := h
    constructor
    · intro h; cases h
    · rintro ⟨h1, -⟩
      omega
  · next h =>
    have h' : ¬ values.length ≤ 5 := h
    constructor
    · intro h; cases h; exact ⟨by omega, rfl⟩
    · rintro ⟨-, rfl⟩; rfl

/-! ### The adequacy of the data -/

/-- **C119 (parameters).** The number of parameters in the table is that of the geos without one, of the knots
and of the stacked channels and controls; the number of data points is that of the geos times the times. -/
theorem adequacy (geos times knots : ℕ) (sample : List Dim) (hs : ∀ d ∈ sample, Kept d) (p : Data α)
    (hp : SomePresent p [.mediaChannel, .rfChannel, .organicMediaChannel, .organicRfChannel, .controlVariable,
      .nonMediaChannel]) :
    ∃ stacked, stackVariables (merge (coordsOf p) (treatmentControl sample p)) = .ok stacked ∧
      ("n_parameters", (geos : ℤ) - 1 + knots + stacked.length) ∈ adequacyRows (dataRatio geos times knots p) ∧
      ("n_data_points", (geos : ℤ) * times) ∈ adequacyRows (dataRatio geos times knots p) ∧
      ("n_geos", (geos : ℤ)) ∈ adequacyRows (dataRatio geos times knots p) ∧
      ("n_times", (times : ℤ)) ∈ adequacyRows (dataRatio geos times knots p) ∧
      ("n_knots", (knots : ℤ)) ∈ adequacyRows (dataRatio geos times knots p) ∧
      ∃ c t : ℤ, ("n_controls", c) ∈ adequacyRows (dataRatio geos times knots p) ∧
        ("n_treatments", t) ∈ adequacyRows (dataRatio geos times knots p) ∧ c + t = stacked.length ∧
        c = ((p .controlVariable).getD []).length := by
  refine ⟨_, EdaStack.Props.treatment_control_rows sample hs p hp, ?_, ?_,
    by simp [adequacyRows, dataRatio], by simp [adequacyRows, dataRatio], by simp [adequacyRows, dataRatio],
    (dataRatio geos times knots p).controls, (dataRatio geos times knots p).treatments,
    by simp [adequacyRows], by simp [adequacyRows], ?_, rfl⟩
  · simp [adequacyRows, dataRatio, EdaMore.Ratio.parameters, channels]
    ring
  · simp [adequacyRows, dataRatio, EdaMore.Ratio.dataPoints]
  · simp [dataRatio, channels]
    ring

/-! ### Cases -/

example : tableRows [("a", some 1), ("b", none), ("c", some 3), ("d", some 2), ("e", some 0), ("f", some 5)] =
    [("f", some 5), ("c", some 3), ("d", some 2), ("a", some (1 : ℕ)), ("e", some 0)] := by decide

example : tableRows [("a", none), ("c", some 3)] = [("c", some (3 : ℕ)), ("a", none)] := by decide

example : tableNote [("a", some 1), ("b", none), ("c", some 3), ("d", some 2), ("e", some 0), ("f", some (5 : ℕ))] =
    some 6 := by decide

example : ∃ stacked, stackVariables (merge (coordsOf EdaStack.Props.exampleData)
      (treatmentControl [.geo, .time] EdaStack.Props.exampleData)) = .ok stacked ∧
    byName (fun l => l.head?) stacked =
      [("TV", some 1), ("Radio", some 2), ("Blog", some 3), ("Price", some 4)] :=
  values_of_variables _ _ (by simp [Kept]) _ ⟨.mediaChannel, by simp, rfl⟩ (by decide)
    (by simp [EdaStack.Props.exampleData]) (by
      intro c hc x hx
      simp [EdaStack.Props.exampleData, channels] at hc hx
      subst hc
      rcases hx with rfl | rfl | rfl <;> decide)

end Verif.EdaTables.Props

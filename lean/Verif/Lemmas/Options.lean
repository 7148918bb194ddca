import Verif.Spec.Options
import Mathlib.Tactic.Tauto
import Mathlib.Tactic.Ring
import Mathlib.Data.List.Lookmap
import Mathlib.Data.Rat.Defs
import Mathlib.Algebra.Order.Ring.Rat

/-!
# Lemmas on options by channel and the model specification
-/

namespace Verif.Options.Lemmas

open Verif.Options Verif.Options.Spec

theorem sameSet_iff (a b : List String) : sameSet a b = true ↔ ∀ x, x ∈ a ↔ x ∈ b := by
  simp only [sameSet, Bool.and_eq_true, List.all_eq_true, List.contains_iff_mem]
  constructor
  · rintro ⟨h1, h2⟩ x
    exact ⟨h1 x, h2 x⟩
  · intro h
    exact ⟨fun x hx => (h x).1 hx, fun x hx => (h x).2 hx⟩

theorem hasKey_iff {α : Type} (m : List (String × α)) (c : String) :
    c ∈ m.map Prod.fst ↔ HasKey m c := by
  simp [HasKey]

theorem lookup_of_mem {α : Type} {m : List (String × α)} (h : IsDict m) {c : String} {v : α}
    (hm : (c, v) ∈ m) : m.lookup c = some v := by
  induction m with
  | nil => simp at hm
  | cons x m ih =>
    obtain ⟨k, w⟩ := x
    unfold IsDict at h
    rw [List.map_cons, List.nodup_cons] at h
    rcases List.mem_cons.1 hm with e | hm'
    · cases e
      simp [List.lookup]
    · have hne : c ≠ k := by
        rintro rfl
        exact h.1 (List.mem_map.2 ⟨_, hm', rfl⟩)
      have : (c == k) = false := by simpa using hne
      simp [List.lookup, this, ih h.2 hm']

theorem lookup_of_not_mem {α : Type} {m : List (String × α)} {c : String} (h : ¬ HasKey m c) :
    m.lookup c = none := by
  induction m with
  | nil => rfl
  | cons x m ih =>
    obtain ⟨k, w⟩ := x
    have hne : c ≠ k := by
      rintro rfl
      exact h ⟨w, by simp⟩
    have : (c == k) = false := by simpa using hne
    simp only [List.lookup, this]
    exact ih fun ⟨v, hv⟩ => h ⟨v, by simp [hv]⟩

theorem getArg_of_mem {α : Type} {m : List (String × α)} (h : IsDict m) {c : String} {v : α}
    (hm : (c, v) ∈ m) (d : Option α) : getArg m d c = some v := by
  simp [getArg, lookup_of_mem h hm]

theorem getArg_of_not_mem {α : Type} {m : List (String × α)} {c : String} (h : ¬ HasKey m c)
    (d : Option α) : getArg m d c = d := by
  simp [getArg, lookup_of_not_mem h]

theorem getArg_perm {α : Type} {m m' : List (String × α)} (h : IsDict m) (hp : m.Perm m')
    (d : Option α) (c : String) : getArg m d c = getArg m' d c := by
  have h' : IsDict m' := (hp.map Prod.fst).nodup_iff.1 h
  by_cases hk : HasKey m c
  · obtain ⟨v, hv⟩ := hk
    rw [getArg_of_mem h hv, getArg_of_mem h' (hp.mem_iff.1 hv)]
  · have hk' : ¬ HasKey m' c := fun ⟨v, hv⟩ => hk ⟨v, hp.mem_iff.2 hv⟩
    rw [getArg_of_not_mem hk, getArg_of_not_mem hk']

theorem buildArgs_ok_iff {α : Type} (coords : List String) (d : Option α) (m : List (String × α))
    (r : List (Option α)) : buildArgs coords d m = .ok r ↔
      ¬ HasKey m "self" ∧ (d = none → ∀ c, HasKey m c ↔ c ∈ coords) ∧
        r = coords.map (getArg m d) := by
  unfold buildArgs
  split_ifs with h1 h2
  · rw [List.contains_iff_mem, hasKey_iff] at h1
    simp [h1]
  · rw [Bool.and_eq_true, Option.isNone_iff_eq_none, Bool.not_eq_true', ← Bool.not_eq_true,
      sameSet_iff] at h2
    simp only [hasKey_iff] at h2
    simp only [false_iff, not_and]
    intro _ h
    exact absurd (h h2.1) h2.2
  · rw [List.contains_iff_mem, hasKey_iff] at h1
    rw [Bool.and_eq_true, Option.isNone_iff_eq_none, Bool.not_eq_true', ← Bool.not_eq_true,
      sameSet_iff, not_and, not_not] at h2
    simp only [hasKey_iff] at h2
    simp only [Except.ok.injEq]
    constructor
    · rintro rfl
      exact ⟨h1, h2, rfl⟩
    · exact fun h => h.2.2.symm

theorem typeFuns_ok_iff (d : String) (m : List (String × String)) (o : Option (List String))
    (f : Funs) : typeFuns d m o = .ok f ↔
      (o = none ∧ f = .one d) ∨ ∃ l, o = some l ∧ ¬ HasKey m "self" ∧
        f = .each (l.map (getArg m (some d))) := by
  cases o with
  | none => simp [typeFuns, eq_comm]
  | some l =>
    simp only [typeFuns]
    cases hb : buildArgs l (some d) m with
    | error e =>
      simp only [reduceCtorEq, false_and, false_or, Option.some.injEq, false_iff]
      rintro ⟨l', rfl, h, -⟩
      have := (buildArgs_ok_iff l (some d) m _).2 ⟨h, by simp, rfl⟩
      rw [hb] at this
      exact absurd this (by simp)
    | ok r =>
      obtain ⟨h1, -, rfl⟩ := (buildArgs_ok_iff _ _ _ _).1 hb
      simp [h1, eq_comm]

theorem allChannels_iff (c : Channels) (ch : String) :
    (∃ l, allChannels c = .ok l ∧ ch ∈ l) ↔ Known c ch := by
  unfold allChannels Known
  cases h : [c.media, c.rf, c.organicMedia, c.organicRf].filterMap id with
  | nil =>
    simp only [reduceCtorEq, false_and, exists_false, false_iff, not_exists, not_and]
    intro l hl _
    have : l ∈ [c.media, c.rf, c.organicMedia, c.organicRf].filterMap id := by
      rw [List.mem_filterMap]
      exact ⟨some l, by simp only [List.mem_cons, List.not_mem_nil, or_false]; tauto, rfl⟩
    rw [h] at this
    simp at this
  | cons a as =>
    simp only [Except.ok.injEq, exists_eq_left', List.mem_flatten]
    rw [← h]
    constructor
    · rintro ⟨l, hl, hc⟩
      rw [List.mem_filterMap] at hl
      obtain ⟨o, ho, e⟩ := hl
      cases e
      refine ⟨l, ?_, hc⟩
      simp only [List.mem_cons, List.not_mem_nil, or_false] at ho
      tauto
    · rintro ⟨l, hl, hc⟩
      refine ⟨l, ?_, hc⟩
      rw [List.mem_filterMap]
      exact ⟨some l, by simp only [List.mem_cons, List.not_mem_nil, or_false]; tauto, rfl⟩

theorem namesKnown_iff (c : Channels) (m : List (String × String)) :
    namesKnown c m = .ok () ↔ ∀ ch, HasKey m ch → Known c ch := by
  induction m with
  | nil => simp [namesKnown, HasKey]
  | cons x m ih =>
    obtain ⟨k, v⟩ := x
    have hk : (∀ ch, HasKey ((k, v) :: m) ch → Known c ch) ↔
        Known c k ∧ ∀ ch, HasKey m ch → Known c ch := by
      constructor
      · intro h
        exact ⟨h k ⟨v, by simp⟩, fun ch ⟨w, hw⟩ => h ch ⟨w, by simp [hw]⟩⟩
      · rintro ⟨h1, h2⟩ ch ⟨w, hw⟩
        rcases List.mem_cons.1 hw with e | hw
        · cases e
          exact h1
        · exact h2 ch ⟨w, hw⟩
    rw [hk, ← ih, ← allChannels_iff]
    simp only [namesKnown]
    cases ha : allChannels c with
    | error e => simp
    | ok l =>
      simp only [Except.ok.injEq, exists_eq_left']
      split_ifs with hl
      · rw [List.contains_iff_mem] at hl
        simp [hl]
      · rw [List.contains_iff_mem] at hl
        simp [hl]

theorem fromMap_ok_iff (d : String) (c : Channels) (m : List (String × String)) (s : FunSpec) :
    fromMap d c m = .ok s ↔ (∀ ch, HasKey m ch → Known c ch) ∧
      typeFuns d m c.media = .ok s.media ∧ typeFuns d m c.rf = .ok s.rf ∧
      typeFuns d m c.organicMedia = .ok s.organicMedia ∧
      typeFuns d m c.organicRf = .ok s.organicRf := by
  rw [← namesKnown_iff]
  unfold fromMap
  cases namesKnown c m with
  | error e => simp [bind, Except.bind]
  | ok u =>
    cases typeFuns d m c.media with
    | error e => simp [bind, Except.bind]
    | ok a =>
      cases typeFuns d m c.rf with
      | error e => simp [bind, Except.bind]
      | ok b =>
        cases typeFuns d m c.organicMedia with
        | error e => simp [bind, Except.bind]
        | ok c' =>
          cases typeFuns d m c.organicRf with
          | error e => simp [bind, Except.bind]
          | ok d' =>
            simp only [bind, Except.bind, pure, Except.pure, Except.ok.injEq, true_and]
            constructor
            · rintro rfl
              simp
            · rintro ⟨h1, h2, h3, h4⟩
              cases s
              simp_all

theorem typeFuns_right {d : String} {m : List (String × String)} (hd : IsDict m)
    {o : Option (List String)} {f : Funs} (h : typeFuns d m o = .ok f) : FunsRight m d o f := by
  rintro l rfl i ch hi
  obtain ⟨e, -⟩ | ⟨l', e, -, rfl⟩ := (typeFuns_ok_iff _ _ _ _).1 h
  · exact absurd e (by simp)
  · cases e
    by_cases hk : HasKey m ch
    · obtain ⟨v, hv⟩ := hk
      exact ⟨v, by simp [funAt, hi, getArg_of_mem hd hv], Or.inl hv⟩
    · exact ⟨d, by simp [funAt, hi, getArg_of_not_mem hk], Or.inr ⟨hk, rfl⟩⟩

theorem typeFuns_exists {d : String} {m : List (String × String)} (h : ¬ HasKey m "self")
    (o : Option (List String)) : ∃ f, typeFuns d m o = .ok f := by
  cases o with
  | none => exact ⟨_, (typeFuns_ok_iff _ _ _ _).2 (Or.inl ⟨rfl, rfl⟩)⟩
  | some l => exact ⟨_, (typeFuns_ok_iff _ _ _ _).2 (Or.inr ⟨l, rfl, h, rfl⟩)⟩

theorem fromMap_exists_iff (d : String) (c : Channels) (m : List (String × String)) :
    (∃ s, fromMap d c m = .ok s) ↔ (∀ ch, HasKey m ch → Known c ch) ∧ ¬ HasKey m "self" := by
  constructor
  · rintro ⟨s, hs⟩
    obtain ⟨h1, h2, h3, h4, h5⟩ := (fromMap_ok_iff _ _ _ _).1 hs
    refine ⟨h1, fun hk => ?_⟩
    obtain ⟨l, hl, -⟩ := h1 _ hk
    have key : ∀ (o : Option (List String)) (f : Funs), typeFuns d m o = .ok f → o ≠ some l := by
      rintro o f hf rfl
      obtain ⟨e, -⟩ | ⟨l', -, h, -⟩ := (typeFuns_ok_iff _ _ _ _).1 hf
      · exact absurd e (by simp)
      · exact h hk
    rcases hl with e | e | e | e
    · exact key _ _ h2 e
    · exact key _ _ h3 e
    · exact key _ _ h4 e
    · exact key _ _ h5 e
  · rintro ⟨h1, h2⟩
    obtain ⟨a, ha⟩ := typeFuns_exists (d := d) h2 c.media
    obtain ⟨b, hb⟩ := typeFuns_exists (d := d) h2 c.rf
    obtain ⟨e, he⟩ := typeFuns_exists (d := d) h2 c.organicMedia
    obtain ⟨f, hf⟩ := typeFuns_exists (d := d) h2 c.organicRf
    exact ⟨⟨a, b, e, f⟩, (fromMap_ok_iff _ _ _ _).2 ⟨h1, ha, hb, he, hf⟩⟩

end Verif.Options.Lemmas

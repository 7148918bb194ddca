import Verif.Spec.Registry
import Mathlib.Data.List.Nodup

/-!
# C44: saved function registries are verified on load
-/

namespace Verif.Registry.Props

open Verif.Registry Verif.Registry.Spec

variable {hash : String → String}

theorem checkEntry_ok_iff (r : Reg) (k h : String) :
    checkEntry hash r k h = .ok () ↔ HasHash hash r k h := by
  unfold checkEntry HasHash
  cases hl : r.items.lookup k with
  | none => simp
  | some f =>
    cases hs : f.source with
    | none => simp [hs]
    | some src =>
      simp only [Option.some.injEq, hs]
      split_ifs with hne
      · simp only [reduceCtorEq, false_iff]
        rintro ⟨f', src', rfl, hs', e⟩
        rw [hs] at hs'
        obtain rfl := Option.some.inj hs'
        exact hne e.symm
      · simp only [true_iff]
        exact ⟨f, src, rfl, hs, (not_not.1 hne).symm⟩

theorem checkAll_ok_iff (r : Reg) (stored : List (String × String)) :
    checkAll hash r stored = .ok () ↔ ∀ k h, (k, h) ∈ stored → HasHash hash r k h := by
  induction stored with
  | nil => simp [checkAll]
  | cons e rest ih =>
    obtain ⟨k, h⟩ := e
    unfold checkAll
    have hc := checkEntry_ok_iff (hash := hash) r k h
    cases he : checkEntry hash r k h with
    | error e =>
      rw [he] at hc
      simp only [reduceCtorEq, false_iff, not_forall] at hc ⊢
      exact ⟨k, h, by simp, hc⟩
    | ok u =>
      obtain rfl : u = () := rfl
      rw [he] at hc
      simp only [true_iff] at hc
      simp only
      rw [ih]
      constructor
      · intro hall k' h' hm
        rcases List.mem_cons.1 hm with e | hm
        · obtain ⟨rfl, rfl⟩ := Prod.mk.inj e
          exact hc
        · exact hall k' h' hm
      · intro hall k' h' hm
        exact hall k' h' (List.mem_cons_of_mem _ hm)

/-- C44: a registry is accepted exactly if every function recorded in the saved model is in it, with
retrievable source of the recorded hash. -/
theorem accepted_iff (r : Reg) (stored : List (String × String)) :
    validate hash r stored = .ok () ↔ ∀ k h, (k, h) ∈ stored → HasHash hash r k h := by
  unfold validate
  split_ifs with h
  · simp only [Bool.and_eq_true, List.isEmpty_iff] at h
    simp [h.1]
  · exact checkAll_ok_iff r stored

/-- C44: functions that the saved model does not record do not matter. -/
theorem extra_functions_irrelevant {r r' : Reg} {stored : List (String × String)}
    (h : ∀ k h, (k, h) ∈ stored → r.items.lookup k = r'.items.lookup k) :
    validate hash r stored = .ok () ↔ validate hash r' stored = .ok () := by
  rw [accepted_iff, accepted_iff]
  unfold HasHash
  constructor <;> intro ha k v hm <;> have := ha k v hm
  · rwa [h k v hm] at this
  · rwa [← h k v hm] at this

theorem hashes_ok_iff (items : List (String × Fn)) (l : List (String × String)) :
    hashes hash items = .ok l ↔
      List.Forall₂ (fun e p => p.1 = e.1 ∧ ∃ src, e.2.source = some src ∧ p.2 = hash src) items l := by
  induction items generalizing l with
  | nil => simp [hashes, eq_comm]
  | cons e rest ih =>
    obtain ⟨k, f⟩ := e
    unfold hashes
    rw [List.forall₂_cons_left_iff]
    cases hs : f.source with
    | none => simp [hs]
    | some src =>
      simp only
      cases hr : hashes hash rest with
      | error e =>
        simp only [reduceCtorEq, false_iff, not_exists]
        rintro ⟨k', h'⟩ l' ⟨_, hl, _⟩
        rw [← ih] at hl
        rw [hr] at hl
        simp at hl
      | ok l0 =>
        simp only [Except.ok.injEq]
        constructor
        · rintro rfl
          exact ⟨(k, hash src), l0, ⟨rfl, src, rfl, rfl⟩, (ih l0).1 hr, rfl⟩
        · rintro ⟨⟨k', h'⟩, l', ⟨e1, src', e2, e3⟩, hl, rfl⟩
          rw [← ih, hr] at hl
          obtain rfl := Option.some.inj e2
          simp only at e1 e3
          rw [Except.ok.inj hl, e1, e3]

theorem lookup_of_mem {α : Type} {m : List (String × α)} (hd : IsDict m) {k : String} {v : α}
    (h : (k, v) ∈ m) : m.lookup k = some v := by
  induction m with
  | nil => simp at h
  | cons e rest ih =>
    obtain ⟨k', v'⟩ := e
    unfold IsDict at hd
    simp only [List.map_cons, List.nodup_cons] at hd
    rcases List.mem_cons.1 h with e | hm
    · obtain ⟨rfl, rfl⟩ := Prod.mk.inj e
      simp
    · have hne : k ≠ k' := by
        rintro rfl
        exact hd.1 (List.mem_map.2 ⟨(k, v), hm, rfl⟩)
      have hb : (k == k') = false := by simpa using hne
      rw [List.lookup_cons, hb]
      exact ih hd.2 hm

theorem mem_of_lookup {α : Type} {m : List (String × α)} {k : String} {v : α}
    (h : m.lookup k = some v) : (k, v) ∈ m := by
  induction m with
  | nil => simp at h
  | cons e rest ih =>
    obtain ⟨k', v'⟩ := e
    rw [List.lookup_cons] at h
    by_cases hk : k = k'
    · subst hk
      simp only [beq_self_eq_true] at h
      obtain rfl := Option.some.inj h
      exact List.mem_cons_self
    · have hb : (k == k') = false := by simpa using hk
      rw [hb] at h
      exact List.mem_cons_of_mem _ (ih h)

/-- The recorded hashes of a registry that has not been used before are those of its functions. -/
theorem fresh_hashes {r r' : Reg} {l : List (String × String)} (hd : IsDict r.items)
    (hc : r.cache = none) (h : hashedRegistry hash r = .ok (l, r')) :
    ∀ k f, r.items.lookup k = some f → ∃ src, f.source = some src ∧ (k, hash src) ∈ l := by
  unfold hashedRegistry at h
  rw [hc] at h
  simp only at h
  cases hh : hashes hash r.items with
  | error e => rw [hh] at h; simp at h
  | ok l0 =>
    rw [hh] at h
    simp only [Except.ok.injEq, Prod.mk.injEq] at h
    obtain ⟨rfl, -⟩ := h
    intro k f hf
    have hm := mem_of_lookup hf
    rw [hashes_ok_iff] at hh
    clear hf hd hc
    generalize r.items = items at hh hm
    induction hh with
    | nil => simp at hm
    | cons hab _ ih =>
      rcases List.mem_cons.1 hm with e | hm
      · obtain ⟨e1, src, e2, e3⟩ := hab
        rw [← e] at e1 e2
        refine ⟨src, e2, ?_⟩
        rw [List.mem_cons]; left
        exact Prod.ext e1.symm e3.symm
      · obtain ⟨src, h1, h2⟩ := ih hm
        exact ⟨src, h1, List.mem_cons_of_mem _ h2⟩

theorem mem_fresh_hashes {r r' : Reg} {l : List (String × String)} (hd : IsDict r.items)
    (hc : r.cache = none) (h : hashedRegistry hash r = .ok (l, r')) {k v : String}
    (hm : (k, v) ∈ l) : HasHash hash r k v := by
  unfold hashedRegistry at h
  rw [hc] at h
  simp only at h
  cases hh : hashes hash r.items with
  | error e => rw [hh] at h; simp at h
  | ok l0 =>
    rw [hh] at h
    simp only [Except.ok.injEq, Prod.mk.injEq] at h
    obtain ⟨rfl, -⟩ := h
    rw [hashes_ok_iff] at hh
    have : ∃ f src, (k, f) ∈ r.items ∧ f.source = some src ∧ hash src = v := by
      clear hd hc
      generalize r.items = items at hh
      induction hh with
      | nil => simp at hm
      | cons hab _ ih =>
        rcases List.mem_cons.1 hm with e | hm
        · obtain ⟨e1, src, e2, e3⟩ := hab
          rw [← e] at e1 e3
          exact ⟨_, src, List.mem_cons.2 (Or.inl (Prod.ext e1 rfl)), e2, e3.symm⟩
        · obtain ⟨f, src, h1, h2⟩ := ih hm
          exact ⟨f, src, List.mem_cons_of_mem _ h1, h2⟩
    obtain ⟨f, src, h1, h2, h3⟩ := this
    exact ⟨f, src, lookup_of_mem hd h1, h2, h3⟩

/-- C44: a model saved with a registry that was not used before is accepted with a registry `r2`
exactly if `r2` has all its functions with source of the same hash. -/
theorem saved_accepted_iff {r r' r2 : Reg} {l : List (String × String)} (hd : IsDict r.items)
    (hc : r.cache = none) (h : hashedRegistry hash r = .ok (l, r')) :
    validate hash r2 l = .ok () ↔
      ∀ k f, r.items.lookup k = some f → ∃ src, f.source = some src ∧
        HasHash hash r2 k (hash src) := by
  rw [accepted_iff]
  constructor
  · intro ha k f hf
    obtain ⟨src, h1, h2⟩ := fresh_hashes hd hc h k f hf
    exact ⟨src, h1, ha k _ h2⟩
  · intro ha k v hm
    obtain ⟨f, src, h1, h2, h3⟩ := mem_fresh_hashes hd hc h hm
    obtain ⟨src', h4, h5⟩ := ha k f h1
    rw [h2] at h4
    obtain rfl := Option.some.inj h4
    rwa [← h3]

/-- C44: a function with another source is rejected, for a hash without collisions. -/
theorem changed_source_rejected (hi : Function.Injective hash) {r r' r2 : Reg}
    {l : List (String × String)} (hd : IsDict r.items) (hc : r.cache = none)
    (h : hashedRegistry hash r = .ok (l, r')) {k src src2 : String} (h1 : HasSource r k src)
    (h2 : HasSource r2 k src2) (hne : src ≠ src2) : validate hash r2 l ≠ .ok () := by
  intro ha
  obtain ⟨f, hf, hs⟩ := h1
  obtain ⟨src', e, f2, src2', hl, hs2, he⟩ := (saved_accepted_iff hd hc h).1 ha k f hf
  obtain ⟨f2', hf2, hs2'⟩ := h2
  rw [hl] at hf2
  obtain rfl := Option.some.inj hf2
  rw [hs2] at hs2'
  obtain rfl := Option.some.inj hs2'
  rw [hs] at e
  obtain rfl := Option.some.inj e
  exact hne (hi he).symm

/-- C44, what is compared: registries whose functions have the same sources are treated alike,
whatever else the functions refer to (closures, helpers, globals). -/
theorem only_source_compared {r r' : Reg} {stored : List (String × String)}
    (h : ∀ k, (r.items.lookup k).map Fn.source = (r'.items.lookup k).map Fn.source) :
    validate hash r stored = .ok () ↔ validate hash r' stored = .ok () := by
  rw [accepted_iff, accepted_iff]
  have key : ∀ k v, HasHash hash r k v ↔ HasHash hash r' k v := by
    intro k v
    have := h k
    unfold HasHash
    cases h1 : r.items.lookup k <;> cases h2 : r'.items.lookup k <;> rw [h1, h2] at this
    · simp at this
    · simp at this
    · simp only [Option.map_some, Option.some.injEq] at this
      simp [this]
  constructor <;> intro ha k v hm
  · exact (key k v).1 (ha k v hm)
  · exact (key k v).2 (ha k v hm)

/-- C44, violated over histories: after its first use for saving, a registry records the same hashes
for ever, whatever functions are added or replaced later. -/
theorem hashes_never_updated {r r' : Reg} {l : List (String × String)}
    (h : hashedRegistry hash r = .ok (l, r')) (changes : List (String × Fn)) :
    ∃ r'', hashedRegistry hash (changes.foldl (fun r c => r.set c.1 c.2) r') = .ok (l, r'') := by
  have hc : r'.cache = some l := by
    unfold hashedRegistry at h
    cases hrc : r.cache with
    | some l0 =>
      rw [hrc] at h
      simp only [Except.ok.injEq, Prod.mk.injEq] at h
      obtain ⟨rfl, rfl⟩ := h
      exact hrc
    | none =>
      rw [hrc] at h
      simp only at h
      cases hh : hashes hash r.items with
      | error e => rw [hh] at h; simp at h
      | ok l0 =>
        rw [hh] at h
        simp only [Except.ok.injEq, Prod.mk.injEq] at h
        obtain ⟨rfl, rfl⟩ := h
        rfl
  have : ∀ r0 : Reg, r0.cache = some l →
      (changes.foldl (fun r c => r.set c.1 c.2) r0).cache = some l := by
    clear h hc
    induction changes with
    | nil => intro r0 h; exact h
    | cons c cs ih => intro r0 h; exact ih _ (by simpa [Reg.set] using h)
  refine ⟨changes.foldl (fun r c => r.set c.1 c.2) r', ?_⟩
  unfold hashedRegistry
  rw [this r' hc]

/-- The function `f` is registered after a first save; the model saved then records no hash for it, so
that it loads with any other function of this name. -/
def f1 : Fn := ⟨1, some "def f(x): return x.sum()"⟩
def f2 : Fn := ⟨2, some "def f(x): return x.mean()"⟩

theorem changed_function_accepted :
    ∃ r0 r1 : Reg, ∃ s0 s : SavedAggregation, ∃ r2,
      saveAggregation id ⟨[], none⟩ [] = .ok (s0, r0) ∧ r1 = r0.set "agg" f1 ∧
      saveAggregation id r1 [("control", f1)] = .ok (s, r2) ∧
      loadAggregation id ⟨[("agg", f2)], none⟩ false s = .ok [("control", f2)] :=
  ⟨_, _, _, _, _, rfl, rfl, rfl, by decide⟩

/-! ### Aggregation functions -/

theorem functionKey_some {r : Reg} {f : Fn} {k : String} (hd : IsDict r.items)
    (hf : ByIdentity r f) (h : functionKey r f = some k) : r.items.lookup k = some f := by
  unfold functionKey at h
  cases hfi : r.items.find? fun e => e.2.ident = f.ident with
  | none => rw [hfi] at h; simp at h
  | some e =>
    rw [hfi] at h
    simp only [Option.map_some, Option.some.injEq] at h
    have hm := List.mem_of_find?_eq_some hfi
    have hp := List.find?_some hfi
    simp only [decide_eq_true_eq] at hp
    have := hf e hm hp
    subst h
    apply lookup_of_mem hd
    rw [← this]
    exact hm

theorem functionKey_isSome {r : Reg} {f : Fn} :
    (functionKey r f).isSome ↔ ∃ e ∈ r.items, e.2.ident = f.ident := by
  unfold functionKey
  simp

theorem toKeys_ok_iff (r : Reg) (a : Aggregation Fn) (l : Aggregation String) :
    toKeys r a = .ok l ↔
      List.Forall₂ (fun e p => p.1 = e.1 ∧ functionKey r e.2 = some p.2) a l := by
  induction a generalizing l with
  | nil => simp [toKeys, eq_comm]
  | cons e rest ih =>
    obtain ⟨v, f⟩ := e
    unfold toKeys
    rw [List.forall₂_cons_left_iff]
    cases hs : functionKey r f with
    | none => simp
    | some k =>
      simp only
      cases hr : toKeys r rest with
      | error e =>
        simp only [reduceCtorEq, false_iff, not_exists]
        rintro ⟨k', h'⟩ l' ⟨_, hl, _⟩
        rw [← ih] at hl
        rw [hr] at hl
        simp at hl
      | ok l0 =>
        simp only [Except.ok.injEq]
        constructor
        · rintro rfl
          exact ⟨(v, k), l0, ⟨rfl, rfl⟩, (ih l0).1 hr, rfl⟩
        · rintro ⟨⟨k', h'⟩, l', ⟨e1, e2⟩, hl, rfl⟩
          rw [← ih, hr] at hl
          simp only at e1 e2
          obtain rfl := Option.some.inj e2
          rw [Except.ok.inj hl, e1]

theorem fromKeys_of_lookup (r : Reg) (l : Aggregation String) (a : Aggregation Fn)
    (h : List.Forall₂ (fun p e => e.1 = p.1 ∧ p.2 ≠ "" ∧ r.items.lookup p.2 = some e.2) l a) :
    fromKeys r l = .ok a := by
  induction h with
  | nil => rfl
  | @cons p e l a hpe _ ih =>
    obtain ⟨v, k⟩ := p
    obtain ⟨v', f⟩ := e
    obtain ⟨h1, h2, h3⟩ := hpe
    simp only at h1 h2 h3
    unfold fromKeys
    rw [if_neg h2, h3, ih, h1]

/-- C44: with the same registry, unused before, the aggregation functions of the EDA specification
come back for the same variables, if they are registered, under names that are not empty, and their
source can be retrieved. -/
theorem aggregation_round_trip {r : Reg} (hd : IsDict r.items) (hc : r.cache = none)
    (hs : ∀ e ∈ r.items, e.2.source.isSome) (hk : ∀ e ∈ r.items, e.1 ≠ "")
    (a : Aggregation Fn) (ha : ∀ e ∈ a, ByIdentity r e.2 ∧ ∃ e' ∈ r.items, e'.2 = e.2) :
    ∃ s r', saveAggregation hash r a = .ok (s, r') ∧
      ∀ force, loadAggregation hash r force s = .ok a := by
  have h1 : ∃ keys, toKeys r a = .ok keys := by
    have : ∀ a : Aggregation Fn, (∀ e ∈ a, ∃ e' ∈ r.items, e'.2 = e.2) →
        ∃ keys, toKeys r a = .ok keys := by
      intro a
      induction a with
      | nil => intro _; exact ⟨[], rfl⟩
      | cons e rest ih =>
        intro h
        obtain ⟨v, f⟩ := e
        obtain ⟨l, hl⟩ := ih fun e he => h e (List.mem_cons_of_mem _ he)
        obtain ⟨e', he', hee⟩ := h (v, f) (by simp)
        have hf : (functionKey r f).isSome :=
          functionKey_isSome.2 ⟨e', he', by rw [hee]⟩
        obtain ⟨k, hk⟩ := Option.isSome_iff_exists.1 hf
        refine ⟨(v, k) :: l, ?_⟩
        unfold toKeys
        rw [hk, hl]
    exact this a fun e he => (ha e he).2
  have h2 : ∃ l r', hashedRegistry hash r = .ok (l, r') := by
    have : ∀ items : List (String × Fn), (∀ e ∈ items, e.2.source.isSome) →
        ∃ l, hashes hash items = .ok l := by
      intro items
      induction items with
      | nil => intro _; exact ⟨[], rfl⟩
      | cons e rest ih =>
        intro h
        obtain ⟨k, f⟩ := e
        obtain ⟨l, hl⟩ := ih fun e he => h e (List.mem_cons_of_mem _ he)
        obtain ⟨src, hsrc⟩ := Option.isSome_iff_exists.1 (h (k, f) (by simp))
        simp only at hsrc
        refine ⟨(k, hash src) :: l, ?_⟩
        unfold hashes
        rw [hsrc, hl]
    obtain ⟨l, hl⟩ := this r.items hs
    refine ⟨l, { r with cache := some l }, ?_⟩
    unfold hashedRegistry
    rw [hc, hl]
  obtain ⟨keys, hkeys⟩ := h1
  obtain ⟨l, r', hl⟩ := h2
  refine ⟨⟨keys, l⟩, r', ?_, ?_⟩
  · unfold saveAggregation
    rw [hkeys, hl]
  · intro force
    have hv : validate hash r l = .ok () := by
      rw [accepted_iff]
      intro k v hm
      exact mem_fresh_hashes hd hc hl hm
    have hfk : fromKeys r keys = .ok a := by
      apply fromKeys_of_lookup
      have := (toKeys_ok_iff r a keys).1 hkeys
      rw [List.forall₂_iff_get] at this ⊢
      obtain ⟨hlen, hget⟩ := this
      refine ⟨hlen.symm, ?_⟩
      intro i h1 h2
      obtain ⟨e1, e2⟩ := hget i h2 h1
      have hlk := functionKey_some hd (ha (a.get ⟨i, h2⟩) (List.get_mem _ _)).1 e2
      exact ⟨e1.symm, hk _ (mem_of_lookup hlk), hlk⟩
    unfold loadAggregation
    cases force <;> simp [hv, hfk]

theorem fromKeys_ok_iff (r : Reg) (l : Aggregation String) (a : Aggregation Fn) :
    fromKeys r l = .ok a ↔
      List.Forall₂ (fun p e => e.1 = p.1 ∧ p.2 ≠ "" ∧ r.items.lookup p.2 = some e.2) l a := by
  refine ⟨?_, fromKeys_of_lookup r l a⟩
  induction l generalizing a with
  | nil => intro h; cases h; exact .nil
  | cons p l ih =>
    obtain ⟨v, k⟩ := p
    intro h
    unfold fromKeys at h
    by_cases hk : k = ""
    · rw [if_pos hk] at h; cases h
    rw [if_neg hk] at h
    cases hl : r.items.lookup k with
    | none => rw [hl] at h; cases h
    | some f =>
      rw [hl] at h
      simp only at h
      cases hr : fromKeys r l with
      | error e => rw [hr] at h; cases h
      | ok a' =>
        rw [hr] at h
        cases h
        exact .cons ⟨rfl, hk, hl⟩ (ih a' hr)

/-- C44: loading gives the functions found under the saved names; without `force` exactly if also all
recorded functions have the recorded hash. -/
theorem loaded_iff (r : Reg) (force : Bool) (s : SavedAggregation) (a : Aggregation Fn) :
    loadAggregation hash r force s = .ok a ↔
      (force = true ∨ ∀ k h, (k, h) ∈ s.hashes → HasHash hash r k h) ∧
      List.Forall₂ (fun p e => e.1 = p.1 ∧ p.2 ≠ "" ∧ r.items.lookup p.2 = some e.2) s.keys a := by
  rw [← fromKeys_ok_iff, ← accepted_iff]
  unfold loadAggregation
  cases force with
  | true => simp
  | false =>
    simp only [Bool.false_eq_true, if_false, false_or]
    cases validate hash r s.hashes with
    | error e => simp
    | ok u => cases u; simp

theorem lookup_setEntry (items : List (String × Fn)) (key k : String) (f : Fn) :
    (setEntry items key f).lookup k = if k = key then some f else items.lookup k := by
  induction items with
  | nil =>
    by_cases h : k = key
    · simp [setEntry, h]
    · have hb : (k == key) = false := by simpa using h
      simp [setEntry, List.lookup_cons, hb, h]
  | cons e rest ih =>
    obtain ⟨k', g⟩ := e
    unfold setEntry
    by_cases hk : k' = key
    · rw [if_pos hk]
      subst hk
      by_cases h : k = k'
      · simp [h]
      · have hb : (k == k') = false := by simpa using h
        simp [List.lookup_cons, hb, h]
    · rw [if_neg hk]
      by_cases h : k = k'
      · subst h
        simp [hk]
      · have hb : (k == k') = false := by simpa using h
        rw [List.lookup_cons, hb, List.lookup_cons, hb]
        exact ih

/-- C44, violated over histories: if a function is replaced after the registry was used for saving,
what is saved afterwards cannot be loaded with the very registry it was saved with, for a hash without
collisions. -/
theorem replaced_function_not_loadable (hi : Function.Injective hash) {r r' r'' : Reg}
    {l : List (String × String)} (hd : IsDict r.items) (hc : r.cache = none)
    (h : hashedRegistry hash r = .ok (l, r')) {k src src2 : String} (h1 : HasSource r k src)
    {f : Fn} (h2 : f.source = some src2) (hne : src ≠ src2) {a : Aggregation Fn}
    {s : SavedAggregation} (hs : saveAggregation hash (r'.set k f) a = .ok (s, r''))
    (b : Aggregation Fn) : loadAggregation hash r'' false s ≠ .ok b := by
  have hcache : r'.cache = some l ∧ r'.items = r.items := by
    unfold hashedRegistry at h
    rw [hc] at h
    simp only at h
    cases hh : hashes hash r.items with
    | error e => rw [hh] at h; cases h
    | ok l0 => rw [hh] at h; cases h; exact ⟨rfl, rfl⟩
  have hr'' : r'' = r'.set k f ∧ s.hashes = l := by
    unfold saveAggregation at hs
    cases hk : toKeys (r'.set k f) a with
    | error e => rw [hk] at hs; cases hs
    | ok keys =>
      rw [hk] at hs
      simp only [hashedRegistry, Reg.set, hcache.1] at hs
      cases hs
      exact ⟨by simp only [Reg.set, hcache.1], rfl⟩
  intro hl
  rw [loaded_iff] at hl
  have hall := hl.1.resolve_left (by simp)
  rw [hr''.2, ← accepted_iff] at hall
  refine changed_source_rejected hi hd hc h h1 (r2 := r'') ⟨f, ?_, h2⟩ hne hall
  rw [hr''.1]
  show (setEntry r'.items k f).lookup k = some f
  rw [lookup_setEntry, if_pos rfl]

/-- A registry used for saving, and a function replaced afterwards. -/
example : ∃ s r'', saveAggregation id (Reg.set ⟨[("agg", f1)], some [("agg", "def f(x): return x.sum()")]⟩
    "agg" f2) [("control", f2)] = .ok (s, r'') ∧
    loadAggregation id r'' false s = .error (.mismatch "agg") :=
  ⟨_, _, rfl, by decide⟩

/-- C44: a function that is not registered cannot be saved. -/
theorem unregistered_not_saved {r : Reg} {a : Aggregation Fn} {v : String} {f : Fn}
    (hm : (v, f) ∈ a) (hf : ∀ e ∈ r.items, e.2.ident ≠ f.ident) :
    ∃ e, saveAggregation hash r a = .error e := by
  have hk : functionKey r f = none := by
    rw [← Option.not_isSome_iff_eq_none, functionKey_isSome]
    rintro ⟨e, he, h⟩
    exact hf e he h
  have : ∃ e, toKeys r a = .error e := by
    induction a with
    | nil => simp at hm
    | cons e rest ih =>
      obtain ⟨v', f'⟩ := e
      unfold toKeys
      rcases List.mem_cons.1 hm with e | hm
      · obtain ⟨rfl, rfl⟩ := Prod.mk.inj e
        rw [hk]
        exact ⟨_, rfl⟩
      · obtain ⟨e, he⟩ := ih hm
        cases functionKey r f' with
        | none => exact ⟨_, rfl⟩
        | some k => rw [he]; exact ⟨_, rfl⟩
  obtain ⟨e, he⟩ := this
  refine ⟨e, ?_⟩
  unfold saveAggregation
  rw [he]

/-! ### A registry with two functions -/

def regEx : Reg := ⟨[("total", f1), ("average", f2)], none⟩

example : IsDict regEx.items ∧ regEx.cache = none ∧ ByIdentity regEx f2 ∧
    (∀ e ∈ regEx.items, e.2.source.isSome) ∧ ∀ e ∈ regEx.items, e.1 ≠ "" := by
  refine ⟨by unfold IsDict; decide, rfl, ?_, ?_, ?_⟩ <;> intro e he <;>
    (simp only [regEx, List.mem_cons, List.not_mem_nil, or_false] at he
     rcases he with rfl | rfl <;> simp [f1, f2])

example : (saveAggregation id regEx [("c1", f2), ("c2", f1), ("c3", f2)]).toOption.map
    (fun s => s.1.keys) = some [("c1", "average"), ("c2", "total"), ("c3", "average")] := by decide

example : HasSource regEx "total" "def f(x): return x.sum()" :=
  ⟨f1, by decide, rfl⟩

end Verif.Registry.Props

import Verif.Spec.DistEq
import Mathlib.Tactic

/-!
# C59: comparison of distributions
-/

namespace Verif.DistEq.Props

open Verif.DistEq Verif.DistEq.Spec

theorem isclose_iff (x y : Num) : isclose x y = true ↔ Near x y := by
  unfold isclose Near
  cases x with
  | none => simp
  | some a =>
    cases y with
    | none => simp
    | some b =>
      rw [decide_eq_true_eq]
      constructor
      · intro h
        exact ⟨a, b, rfl, rfl, h⟩
      · rintro ⟨a', b', ha, hb, h⟩
        cases ha; cases hb; exact h

theorem entry_vec (l : List Num) (i : ℕ) (h : i < l.length) : entry (.vec l) i = l[i]? := by
  match l, h with
  | [x], h =>
    have : i = 0 := by simp at h; omega
    subst this; rfl
  | _ :: _ :: _, _ => rfl

theorem all_entries (l : List Num) (p : Num → Prop) :
    (∀ x ∈ l, p x) ↔ ∀ i < l.length, ∃ x, entry (.vec l) i = some x ∧ p x := by
  constructor
  · intro h i hi
    rw [entry_vec l i hi]
    exact ⟨l[i], List.getElem?_eq_getElem hi, h _ (List.getElem_mem hi)⟩
  · intro h x hx
    obtain ⟨i, hi, rfl⟩ := List.getElem_of_mem hx
    obtain ⟨y, hy, hp⟩ := h i hi
    rw [entry_vec l i hi, List.getElem?_eq_getElem hi] at hy
    cases hy; exact hp

theorem allclose_iff (t u : Tensor) : allclose t u = .ok true ↔ Close t u := by
  cases t with
  | scalar a =>
    cases u with
    | scalar b =>
      simp only [allclose, Except.ok.injEq, isclose_iff]
      constructor
      · intro h
        exact ⟨1, rfl, fun i _ => ⟨a, b, rfl, rfl, h⟩⟩
      · rintro ⟨n, hn, h⟩
        obtain ⟨x, y, hx, hy, hxy⟩ := h 0 (by rw [show n = 1 from hn]; omega)
        cases hx; cases hy; exact hxy
    | vec l =>
      simp only [allclose, Except.ok.injEq, List.all_eq_true, isclose_iff]
      rw [all_entries l (Near a)]
      constructor
      · intro h
        refine ⟨l.length, rfl, fun i hi => ?_⟩
        obtain ⟨y, hy, hn⟩ := h i hi
        exact ⟨a, y, rfl, hy, hn⟩
      · rintro ⟨n, hn, h⟩ i hi
        obtain ⟨x, y, hx, hy, hxy⟩ := h i (by rw [← show l.length = n from hn]; exact hi)
        cases hx
        exact ⟨y, hy, hxy⟩
  | vec l =>
    cases u with
    | scalar b =>
      simp only [allclose, Except.ok.injEq, List.all_eq_true, isclose_iff]
      rw [all_entries l fun a => Near a b]
      constructor
      · intro h
        refine ⟨l.length, rfl, fun i hi => ?_⟩
        obtain ⟨y, hy, hn⟩ := h i hi
        exact ⟨y, b, hy, rfl, hn⟩
      · rintro ⟨n, hn, h⟩ i hi
        obtain ⟨x, y, hx, hy, hxy⟩ := h i (by rw [← show l.length = n from hn]; exact hi)
        cases hy
        exact ⟨x, hx, hxy⟩
    | vec m =>
      change vecClose l m = _ ↔ _
      unfold vecClose
      by_cases hlm : l.length = m.length
      · rw [if_pos hlm]
        simp only [Except.ok.injEq, List.all_eq_true, isclose_iff]
        constructor
        · intro h
          refine ⟨l.length, ⟨Or.inl rfl, Or.inl hlm.symm, Or.inl rfl⟩, fun i hi => ?_⟩
          have hi' : i < m.length := hlm ▸ hi
          refine ⟨l[i], m[i], ?_, ?_, ?_⟩
          · rw [entry_vec l i hi]; exact List.getElem?_eq_getElem hi
          · rw [entry_vec m i hi']; exact List.getElem?_eq_getElem hi'
          · apply h (l[i], m[i])
            rw [List.mem_iff_getElem]
            exact ⟨i, by rw [List.length_zip]; omega, by simp⟩
        · rintro ⟨n, ⟨-, -, hn⟩, h⟩ p hp
          obtain ⟨i, hi, rfl⟩ := List.getElem_of_mem hp
          have hi1 : i < l.length := by rw [List.length_zip] at hi; omega
          have hi2 : i < m.length := by omega
          obtain ⟨x, y, hx, hy, hxy⟩ := h i (by omega)
          rw [entry_vec l i hi1, List.getElem?_eq_getElem hi1] at hx
          rw [entry_vec m i hi2, List.getElem?_eq_getElem hi2] at hy
          cases hx; cases hy
          simpa using hxy
      · rw [if_neg hlm]
        match l, m, hlm with
        | [a], m, hlm =>
          have hm : m.length ≠ 1 := fun h => hlm (by simp [h])
          simp only [Except.ok.injEq, List.all_eq_true, isclose_iff]
          rw [all_entries m (Near a)]
          constructor
          · intro h
            refine ⟨m.length, ⟨Or.inr rfl, Or.inl rfl, Or.inr rfl⟩, fun i hi => ?_⟩
            obtain ⟨y, hy, hn⟩ := h i hi
            exact ⟨a, y, rfl, hy, hn⟩
          · rintro ⟨n, ⟨-, h2, -⟩, h⟩ i hi
            have hn : m.length = n := h2.resolve_right hm
            obtain ⟨x, y, hx, hy, hxy⟩ := h i (by omega)
            have : a = x := by simpa [entry] using hx
            subst this
            exact ⟨y, hy, hxy⟩
        | [], [b], _ =>
          simp only [List.all_nil, true_iff]
          exact ⟨0, ⟨Or.inl rfl, Or.inr rfl, Or.inl rfl⟩, fun i hi => absurd hi (by omega)⟩
        | a :: a' :: l, [b], _ =>
          simp only [Except.ok.injEq, List.all_eq_true, isclose_iff]
          rw [all_entries (a :: a' :: l) fun a => Near a b]
          constructor
          · intro h
            refine ⟨(a :: a' :: l).length, ⟨Or.inl rfl, Or.inr rfl, Or.inl rfl⟩, fun i hi => ?_⟩
            obtain ⟨y, hy, hn⟩ := h i hi
            exact ⟨y, b, hy, rfl, hn⟩
          · rintro ⟨n, ⟨h1, -, -⟩, h⟩ i hi
            have hn : (a :: a' :: l).length = n := h1.resolve_right (by simp)
            obtain ⟨x, y, hx, hy, hxy⟩ := h i (by omega)
            have : b = y := by simpa [entry] using hy
            subst this
            exact ⟨x, hx, hxy⟩
        | [], [], h => exact absurd rfl h
        | [], _ :: _ :: m, _ =>
          simp only [reduceCtorEq, false_iff]
          rintro ⟨n, ⟨h1, h2, h3⟩, -⟩
          simp at h1 h2 h3; omega
        | a :: a' :: l, [], _ =>
          simp only [reduceCtorEq, false_iff]
          rintro ⟨n, ⟨h1, h2, h3⟩, -⟩
          simp at h1 h2 h3; omega
        | a :: a' :: l, b :: b' :: m, hlm =>
          simp only [reduceCtorEq, false_iff]
          rintro ⟨n, ⟨h1, h2, h3⟩, -⟩
          simp at h1 h2 h3 hlm; omega

theorem valueEqual_iff (v w : PV) : valueEqual v w = .ok true ↔ SameValue v w := by
  cases v <;> cases w <;> simp [valueEqual, SameValue, allclose_iff]

theorem lookup_isSome_iff (p : List (String × PV)) (k : String) :
    (∃ v, p.lookup k = some v) ↔ k ∈ p.map Prod.fst := by
  induction p with
  | nil => simp
  | cons x rest ih =>
    obtain ⟨a, b⟩ := x
    by_cases h : k = a
    · subst h; simp [List.lookup_cons]
    · have : (k == a) = false := by simpa using h
      simp only [List.lookup_cons, this, List.map_cons, List.mem_cons, h, false_or]
      exact ih

theorem loop_iff (p q : List (String × PV)) (ks : List String) :
    loop p q ks = .ok true ↔
      ∀ k ∈ ks, ∃ v w, p.lookup k = some v ∧ q.lookup k = some w ∧ SameValue v w := by
  induction ks with
  | nil => simp [loop]
  | cons k rest ih =>
    unfold loop
    rw [List.forall_mem_cons]
    cases hp : p.lookup k with
    | none => simp
    | some v =>
      cases hq : q.lookup k with
      | none => simp
      | some w =>
        have hv := valueEqual_iff v w
        cases hr : valueEqual v w with
        | error e =>
          rw [hr] at hv
          simp only [hr, reduceCtorEq, false_iff] at hv ⊢
          rintro ⟨⟨v', w', h1, h2, h3⟩, -⟩
          cases h1; cases h2; exact hv h3
        | ok b =>
          rw [hr] at hv
          cases b with
          | false =>
            simp only [hr, Except.ok.injEq, Bool.false_eq_true, false_iff] at hv ⊢
            rintro ⟨⟨v', w', h1, h2, h3⟩, -⟩
            cases h1; cases h2; exact hv h3
          | true =>
            simp only [true_iff] at hv
            simp only [hr, ih]
            constructor
            · intro h
              exact ⟨⟨v, w, rfl, rfl, hv⟩, h⟩
            · exact fun h => h.2

theorem sameKeys_iff (p q : List (String × PV)) :
    sameKeys p q = true ↔ ∀ k, k ∈ p.map Prod.fst ↔ k ∈ q.map Prod.fst := by
  unfold sameKeys
  rw [Bool.and_eq_true, List.all_eq_true, List.all_eq_true]
  constructor
  · rintro ⟨h1, h2⟩ k
    constructor
    · intro hk
      obtain ⟨x, hx, rfl⟩ := List.mem_map.1 hk
      exact List.contains_iff_mem.1 (h1 x hx)
    · intro hk
      obtain ⟨x, hx, rfl⟩ := List.mem_map.1 hk
      exact List.contains_iff_mem.1 (h2 x hx)
  · intro h
    exact ⟨fun x hx => List.contains_iff_mem.2 ((h x.1).1 (List.mem_map_of_mem hx)),
      fun x hx => List.contains_iff_mem.2 ((h x.1).2 (List.mem_map_of_mem hx))⟩

theorem paramsEqual_iff (p q : List (String × PV)) :
    paramsEqual p q = .ok true ↔ SameParams p q := by
  unfold paramsEqual SameParams
  by_cases h : sameKeys p q = true
  · have hk := (sameKeys_iff p q).1 h
    rw [if_pos h, loop_iff]
    constructor
    · intro hl
      refine ⟨hk, fun k v w hv hw => ?_⟩
      obtain ⟨v', w', h1, h2, h3⟩ := hl k ((lookup_isSome_iff p k).1 ⟨v, hv⟩)
      rw [hv] at h1; rw [hw] at h2
      cases h1; cases h2; exact h3
    · rintro ⟨-, hl⟩ k hkm
      obtain ⟨v, hv⟩ := (lookup_isSome_iff p k).2 hkm
      obtain ⟨w, hw⟩ := (lookup_isSome_iff q k).2 ((hk k).1 hkm)
      exact ⟨v, w, hv, hw, hl k v w hv hw⟩
  · rw [if_neg h]
    simp only [Except.ok.injEq, Bool.false_eq_true, false_iff]
    rintro ⟨hk, -⟩
    exact h ((sameKeys_iff p q).2 hk)

mutual

theorem areEqual_iff : ∀ a b : Dist, areEqual a b = .ok true ↔ Same a b
  | .mk c i l p, .mk c' i' l' p' => by
    have h1 := innerEqual_iff i i'
    have h2 := compsEqual_iff l l'
    have h3 := paramsEqual_iff p p'
    unfold areEqual Same
    by_cases hc : c = c'
    · simp only [hc, ne_eq, not_true_eq_false, if_false, true_and]
      cases hi : innerEqual i i' with
      | error e =>
        rw [hi] at h1
        simp only [reduceCtorEq, false_iff]
        rintro ⟨h, -⟩
        simpa using h1.2 h
      | ok b =>
        rw [hi] at h1
        cases b with
        | false =>
          simp only [Except.ok.injEq, Bool.false_eq_true, false_iff]
          rintro ⟨h, -⟩
          simpa using h1.2 h
        | true =>
          have hi1 : oneInner i i' = false ↔ SameInner i i' := by
            rw [← h1]; simp
          cases hl : compsEqual l l' with
          | error e =>
            rw [hl] at h2
            simp only [reduceCtorEq, false_iff]
            rintro ⟨-, h, -⟩
            simpa using h2.2 h
          | ok b =>
            rw [hl] at h2
            cases b with
            | false =>
              simp only [Except.ok.injEq, Bool.false_eq_true, false_iff]
              rintro ⟨-, h, -⟩
              simpa using h2.2 h
            | true =>
              have hl1 : oneComps l l' = false ↔ SameComps l l' := by
                rw [← h2]; simp
              by_cases ho : oneInner i i' = true
              · simp only [ho, if_true, Except.ok.injEq, Bool.false_eq_true, false_iff]
                rintro ⟨h, -⟩
                rw [← hi1, ho] at h; cases h
              · by_cases hq : oneComps l l' = true
                · simp only [ho, if_false, hq, if_true, Except.ok.injEq, Bool.false_eq_true,
                    false_iff]
                  rintro ⟨-, h, -⟩
                  rw [← hl1, hq] at h; cases h
                · rw [Bool.not_eq_true] at ho hq
                  simp only [ho, hq, Bool.false_eq_true, if_false, h3]
                  constructor
                  · intro h
                    exact ⟨hi1.1 ho, hl1.1 hq, h⟩
                  · exact fun h => h.2.2
    · simp [hc]

theorem innerEqual_iff : ∀ i i' : Inner,
    (innerEqual i i' = .ok true ∧ oneInner i i' = false) ↔ SameInner i i'
  | .absent, .absent => by simp [innerEqual, oneInner, SameInner]
  | .absent, .given _ => by simp [oneInner, SameInner]
  | .given _, .absent => by simp [oneInner, SameInner]
  | .given d, .given e => by
    have := areEqual_iff d e
    simp [innerEqual, oneInner, SameInner, this]

theorem compsEqual_iff : ∀ l l' : Comps,
    (compsEqual l l' = .ok true ∧ oneComps l l' = false) ↔ SameComps l l'
  | .absent, .absent => by simp [compsEqual, oneComps, SameComps]
  | .absent, .given _ => by simp [oneComps, SameComps]
  | .given _, .absent => by simp [oneComps, SameComps]
  | .given l, .given m => by
    have := listEqual_iff l m
    simp only [compsEqual, oneComps, SameComps, and_true]
    by_cases h : l.length = m.length
    · rw [if_pos h, ← this]; simp [h]
    · rw [if_neg h]
      simp only [Except.ok.injEq, Bool.false_eq_true, false_iff]
      rw [← this]
      exact fun h' => h h'.2

theorem listEqual_iff : ∀ l m : Dists,
    (listEqual l m = .ok true ∧ l.length = m.length) ↔ SameList l m
  | .nil, .nil => by simp [listEqual, SameList]
  | .nil, .cons _ _ => by simp [Dists.length, SameList]
  | .cons _ _, .nil => by simp [Dists.length, SameList]
  | .cons d l, .cons e m => by
    have h1 := areEqual_iff d e
    have h2 := listEqual_iff l m
    simp only [listEqual, SameList, Dists.length, Nat.add_right_cancel_iff]
    rw [← h1, ← h2]
    cases areEqual d e with
    | error _ => simp
    | ok b => cases b <;> simp

end

/-- **C59.** Two distributions are found equal exactly if they have the same class, the same names of
parameters, and values that agree up to the tolerance element by element, in all nested
distributions. -/
theorem equal_iff (a b : Dist) : areEqual a b = .ok true ↔ Same a b := areEqual_iff a b

theorem near_refl (a : ℚ) : Near (some a) (some a) :=
  ⟨a, a, rfl, rfl, by rw [sub_self, abs_zero]; positivity⟩

theorem close_refl (t : Tensor) (h : Finite (.num t)) : Close t t := by
  cases t with
  | scalar x =>
    cases x with
    | none => exact absurd rfl h
    | some a => exact ⟨1, rfl, fun i _ => ⟨some a, some a, rfl, rfl, near_refl a⟩⟩
  | vec l =>
    refine ⟨l.length, ⟨Or.inl rfl, Or.inl rfl, Or.inl rfl⟩, fun i hi => ?_⟩
    rw [entry_vec l i hi, List.getElem?_eq_getElem hi]
    cases hx : l[i] with
    | none => exact absurd (hx ▸ List.getElem_mem hi) h
    | some a => exact ⟨some a, some a, rfl, rfl, near_refl a⟩

theorem mem_of_lookup (p : List (String × PV)) (k : String) (v : PV) (h : p.lookup k = some v) :
    (k, v) ∈ p := by
  induction p with
  | nil => cases h
  | cons x rest ih =>
    obtain ⟨a, b⟩ := x
    by_cases hk : k = a
    · subst hk
      simp only [List.lookup_cons, BEq.rfl] at h
      cases h
      exact List.mem_cons_self
    · have : (k == a) = false := by simpa using hk
      simp only [List.lookup_cons, this] at h
      exact List.mem_cons_of_mem _ (ih h)

theorem sameParams_refl (p : List (String × PV)) (h : ∀ x ∈ p, Finite x.2) : SameParams p p := by
  refine ⟨fun _ => Iff.rfl, fun k v w hv hw => ?_⟩
  rw [hv] at hw; cases hw
  have hf := h _ (mem_of_lookup p k v hv)
  cases v with
  | num t => exact close_refl t hf
  | other s => rfl

mutual

theorem same_refl : ∀ a : Dist, AllFinite a → Same a a
  | .mk c i l p, h =>
    ⟨rfl, sameInner_refl i h.1, sameComps_refl l h.2.1, sameParams_refl p h.2.2⟩

theorem sameInner_refl : ∀ i : Inner, InnerFinite i → SameInner i i
  | .absent, _ => trivial
  | .given d, h => same_refl d h

theorem sameComps_refl : ∀ l : Comps, CompsFinite l → SameComps l l
  | .absent, _ => trivial
  | .given l, h => sameList_refl l h

theorem sameList_refl : ∀ l : Dists, ListFinite l → SameList l l
  | .nil, _ => trivial
  | .cons d l, h => ⟨same_refl d h.1, sameList_refl l h.2⟩

end

/-- **C59.** A distribution without NaN parameters equals itself. -/
theorem equal_self (a : Dist) (h : AllFinite a) : areEqual a a = .ok true :=
  (equal_iff a a).2 (same_refl a h)

/-- **C59.** Distributions of different classes are never equal. -/
theorem different_class (c c' : String) (i i' : Inner) (l l' : Comps) (p p' : List (String × PV))
    (h : c ≠ c') : areEqual (.mk c i l p) (.mk c' i' l' p') = .ok false := by
  simp [areEqual, h]

/-- **C59.** A number that differs by more than the tolerance makes the distributions different,
wherever it is among the parameters. -/
theorem different_number (c : String) (i : Inner) (l : Comps) (p p' : List (String × PV))
    (k : String) (a b : ℚ) (hp : p.lookup k = some (.num (.scalar (some a))))
    (hp' : p'.lookup k = some (.num (.scalar (some b))))
    (h : 1 / 10 ^ 8 + 1 / 10 ^ 5 * |b| < |a - b|) :
    areEqual (.mk c i l p) (.mk c i l p') ≠ .ok true := by
  rw [ne_eq, equal_iff]
  rintro ⟨-, -, -, -, hs⟩
  obtain ⟨n, hn, hc⟩ := hs k _ _ hp hp'
  obtain ⟨x, y, hx, hy, a', b', ha, hb, hle⟩ := hc 0 (by rw [show n = 1 from hn]; omega)
  cases hx; cases hy; cases ha; cases hb
  exact absurd hle (not_le.2 h)

/-- A distribution with one parameter `loc`. -/
def withLoc (t : Tensor) : Dist := .mk "LogNormal" .absent .absent [("loc", .num t)]

/-- **C59, violated.** The comparison is not symmetric. -/
theorem not_symmetric : ∃ a b, areEqual a b = .ok true ∧ areEqual b a = .ok false :=
  ⟨withLoc (.scalar (some (100000))),
   withLoc (.scalar (some (100001 + 1 / 10 ^ 6))), by decide +kernel, by decide +kernel⟩

/-- **C59, violated.** One distribution and a batch of any number of copies of it are found equal. -/
theorem batch_equals_scalar (a : ℚ) (n : ℕ) :
    areEqual (withLoc (.scalar (some a))) (withLoc (.vec (List.replicate n (some a)))) = .ok true := by
  rw [equal_iff]
  refine ⟨rfl, trivial, trivial, fun _ => Iff.rfl, fun k v w hv hw => ?_⟩
  have hk : k = "loc" := by
    by_contra h
    have : (k == "loc") = false := by simpa using h
    simp [List.lookup_cons, this] at hv
  subst hk
  simp only [List.lookup_cons, BEq.rfl, Option.some.injEq] at hv hw
  subst hv hw
  refine ⟨n, by simp [Common], fun i hi => ⟨some a, some a, rfl, ?_, near_refl a⟩⟩
  rw [entry_vec _ _ (by simpa using hi)]
  simp [hi]

/-- **C59, violated.** A distribution with a NaN parameter does not equal itself. -/
theorem nan_not_equal : areEqual (withLoc (.scalar none)) (withLoc (.scalar none)) = .ok false := by
  decide +kernel

/-- **C59, violated.** Comparing batches of different sizes raises an exception instead of finding them
different. -/
theorem sizes_raise (l m : List Num) (h : l.length ≠ m.length) (hl : l.length ≠ 1)
    (hm : m.length ≠ 1) : areEqual (withLoc (.vec l)) (withLoc (.vec m)) = .error .shapes := by
  have key : allclose (.vec l) (.vec m) = .error .shapes := by
    change vecClose l m = _
    unfold vecClose
    rw [if_neg h]
    match l, m, hl, hm with
    | [], [], _, _ => exact absurd rfl h
    | [_], _, hl, _ => exact absurd rfl hl
    | _, [_], _, hm => exact absurd rfl hm
    | [], _ :: _ :: _, _, _ => rfl
    | _ :: _ :: _, [], _, _ => rfl
    | _ :: _ :: _, _ :: _ :: _, _, _ => rfl
  simp [withLoc, areEqual, innerEqual, compsEqual, oneInner, oneComps, paramsEqual, sameKeys, loop,
    valueEqual, key, List.lookup_cons]

/-! ### Concrete cases -/

/-- A joint distribution of a truncated normal and a batch of log-normal distributions. -/
def nested (s : ℚ) : Dist :=
  .mk "BatchBroadcast"
    (.given (.mk "IndependentMultivariateDistribution" .absent
      (.given (.cons (.mk "TruncatedNormal" .absent .absent
          [("loc", .num (.scalar (some 0))), ("scale", .num (.scalar (some s)))])
        (.cons (.mk "LogNormal" .absent .absent
          [("loc", .num (.vec [some 1, some 2])), ("scale", .num (.scalar (some 1)))]) .nil)))
      [("name", .other 3)])) .absent [("to_shape", .num (.vec [some 3]))]

example : areEqual (nested 1) (nested (1 + 1 / 10 ^ 6)) = .ok true := by decide +kernel
example : areEqual (nested 1) (nested (1 + 1 / 10 ^ 3)) = .ok false := by decide +kernel
example : AllFinite (nested 1) := by
  simp [nested, AllFinite, InnerFinite, CompsFinite, ListFinite, Spec.Finite]
example : (1 : ℚ) / 10 ^ 8 + 1 / 10 ^ 5 * |2| < |3 - 2| := by norm_num

end Verif.DistEq.Props

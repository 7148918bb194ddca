import Mathlib.Tactic
import Mathlib.Data.Rat.Floor
import Mathlib.MeasureTheory.Measure.Lebesgue.Basic
import Verif.Spec.Thin

/-! # Thinning of the posterior: theorems -/

namespace Verif.Thin.Props

open Verif.Thin Verif.Thin.Spec MeasureTheory

section Field

variable {K δ : Type} [Field K] [LinearOrder K] [IsStrictOrderedRing K] [FloorRing K]

theorem step_ge_one {n m : ℕ} (hm : 1 ≤ m) (hmn : m ≤ n) : (1 : K) ≤ (n : K) / m := by
  have : (0 : K) < m := by exact_mod_cast hm
  rw [le_div_iff₀ this, one_mul]; exact_mod_cast hmn

theorem value_lt {n m k : ℕ} (hm : 1 ≤ m) (hmn : m ≤ n) (hk : k < m) {u : K} (h1 : u < 1) :
    u * ((n : K) / m) + (n : K) / m * k < n := by
  have hs := step_ge_one (K := K) hm hmn
  have hm0 : (0 : K) < m := by exact_mod_cast hm
  have hk' : (k : K) + 1 ≤ m := by exact_mod_cast hk
  have e : (n : K) / m * m = n := div_mul_cancel₀ _ hm0.ne'
  nlinarith [mul_lt_mul_of_pos_left h1 (lt_of_lt_of_le one_pos hs),
    mul_le_mul_of_nonneg_left hk' (le_trans zero_le_one hs)]

theorem value_nonneg {n m k : ℕ} {u : K} (h0 : 0 ≤ u) :
    0 ≤ u * ((n : K) / m) + (n : K) / m * k := by positivity

/-- The indices without the cap at the last draw. -/
theorem index_eq {n m k : ℕ} (hm : 1 ≤ m) (hmn : m ≤ n) (hk : k < m) {u : K}
    (h0 : 0 ≤ u) (h1 : u < 1) :
    (drawIndices n m u)[k]? = some ⌊u * ((n : K) / m) + (n : K) / m * k⌋₊ ∧
      ⌊u * ((n : K) / m) + (n : K) / m * k⌋₊ < n := by
  have hlt : ⌊u * ((n : K) / m) + (n : K) / m * k⌋₊ < n :=
    (Nat.floor_lt (value_nonneg h0)).2 (value_lt hm hmn hk h1)
  refine ⟨?_, hlt⟩
  unfold drawIndices
  rw [List.getElem?_map, List.getElem?_range hk, Option.map_some, min_eq_left (by omega)]

theorem length_drawIndices (n m : ℕ) (u : K) : (drawIndices n m u).length = m := by
  simp [drawIndices]

/-- **C60.** The selected draws are at regular intervals: different draws of the chain, in order, as
many as requested, their distances differing from `n / m` by less than one. -/
theorem indices_regular {n m : ℕ} (hm : 1 ≤ m) (hmn : m ≤ n) {u : K} (h0 : 0 ≤ u) (h1 : u < 1) :
    Regular (K := K) n m (drawIndices n m u) := by
  have hlen := length_drawIndices n m u
  have hs := step_ge_one (K := K) hm hmn
  have get : ∀ (k i : ℕ), (drawIndices n m u)[k]? = some i → k < m ∧
      i = ⌊u * ((n : K) / m) + (n : K) / m * k⌋₊ ∧ i < n := by
    intro k i h
    have hk : k < m := by
      obtain ⟨hk, -⟩ := List.getElem?_eq_some_iff.1 h
      omega
    obtain ⟨e, hlt⟩ := index_eq hm hmn hk h0 h1
    rw [h] at e
    cases e
    exact ⟨hk, rfl, hlt⟩
  have next : ∀ k : ℕ, u * ((n : K) / m) + (n : K) / m * ((k + 1 : ℕ) : K) =
      u * ((n : K) / m) + (n : K) / m * k + (n : K) / m := by
    intro k; push_cast; ring
  refine ⟨hlen, ?_, ?_, ?_⟩
  · intro i hi
    obtain ⟨k, hk⟩ := List.mem_iff_getElem?.1 hi
    exact (get k i hk).2.2
  · rw [List.pairwise_iff_getElem]
    intro a b ha hb hab
    have ea := (get a _ (List.getElem?_eq_getElem ha)).2.1
    have eb := (get b _ (List.getElem?_eq_getElem hb)).2.1
    rw [ea, eb, Nat.floor_lt (value_nonneg h0)]
    have hab' : (a : K) + 1 ≤ b := by exact_mod_cast hab
    have hle : u * ((n : K) / m) + (n : K) / m * a + 1 ≤ u * ((n : K) / m) + (n : K) / m * b := by
      nlinarith [mul_le_mul_of_nonneg_left hab' (le_trans zero_le_one hs)]
    have := Nat.lt_floor_add_one (u * ((n : K) / m) + (n : K) / m * b)
    linarith
  · intro k i j hi hj
    obtain ⟨-, ei, -⟩ := get k i hi
    obtain ⟨-, ej, -⟩ := get (k + 1) j hj
    rw [next] at ej
    have p0 : 0 ≤ u * ((n : K) / m) + (n : K) / m * k := value_nonneg h0
    have p1 : 0 ≤ u * ((n : K) / m) + (n : K) / m * k + (n : K) / m := by linarith
    have a1 := Nat.floor_le p0
    have a2 := Nat.lt_floor_add_one (u * ((n : K) / m) + (n : K) / m * k)
    have b1 := Nat.floor_le p1
    have b2 := Nat.lt_floor_add_one (u * ((n : K) / m) + (n : K) / m * k + (n : K) / m)
    rw [← ei] at a1 a2
    rw [← ej] at b1 b2
    constructor <;> linarith

theorem pick_ok (c : List δ) (l : List ℕ) (h : ∀ i ∈ l, i < c.length) :
    ∃ d, pick c l = .ok d ∧ d.map some = l.map fun i => c[i]? := by
  induction l with
  | nil => exact ⟨[], rfl, rfl⟩
  | cons i rest ih =>
    obtain ⟨d, hd, hm⟩ := ih fun j hj => h j (List.mem_cons_of_mem _ hj)
    have hi := h i List.mem_cons_self
    refine ⟨c[i] :: d, ?_, ?_⟩
    · simp only [pick, List.getElem?_eq_getElem hi, hd]
    · simp [hm, List.getElem?_eq_getElem hi]

theorem pickAll_ok (n m : ℕ) (u : ℕ → K) (hm : 1 ≤ m) (hmn : m ≤ n)
    (hu : ∀ i, 0 ≤ u i ∧ u i < 1) (cs : List (List δ)) (hc : ∀ c ∈ cs, c.length = n) (j : ℕ) :
    ∃ ds, pickAll n m u j cs = .ok ds ∧ ds.length = cs.length ∧
      ∀ (k : ℕ) (c d : List δ), cs[k]? = some c → ds[k]? = some d →
        d.map some = (drawIndices n m (u (j + k))).map fun i => c[i]? := by
  induction cs generalizing j with
  | nil => exact ⟨[], rfl, rfl, by simp⟩
  | cons c rest ih =>
    obtain ⟨ds, hds, hlen, hall⟩ := ih (fun c hc' => hc c (List.mem_cons_of_mem _ hc')) (j + 1)
    obtain ⟨d, hd, hdm⟩ := pick_ok c (drawIndices n m (u j)) (by
      intro i hi
      rw [hc c List.mem_cons_self]
      exact (indices_regular hm hmn (hu j).1 (hu j).2).2.1 i hi)
    refine ⟨d :: ds, by simp only [pickAll, hd, hds], by simp [hlen], ?_⟩
    intro k c' d' hc' hd'
    cases k with
    | zero =>
      simp only [List.getElem?_cons_zero, Option.some.injEq] at hc' hd'
      subst hc' hd'
      exact hdm
    | succ k =>
      simp only [List.getElem?_cons_succ] at hc' hd'
      have := hall k c' d' hc' hd'
      rwa [show j + 1 + k = j + (k + 1) by omega] at this

theorem nSelected_iff (n : ℕ) (hn : 1 ≤ n) (a : Args K) (h : a.rate.isNone ≠ a.nDraws.isNone)
    (m : ℕ) : nSelected n a = .ok m ↔ Requested n a m := by
  unfold nSelected Requested
  cases hr : a.rate with
  | some r =>
    have hd : a.nDraws = none := by
      cases hd : a.nDraws with
      | none => rfl
      | some d => rw [hr, hd] at h; simp at h
    simp only [hd, Option.some.injEq, reduceCtorEq, false_and, or_false, true_and]
    by_cases hb : r ≤ 0 ∨ 1 < r
    · rw [if_pos hb]
      simp only [reduceCtorEq, false_iff]
      rintro ⟨r', rfl, h0, h1, -⟩
      rcases hb with hb | hb
      · exact absurd h0 (not_lt.2 hb)
      · exact absurd h1 (not_le.2 hb)
    · rw [if_neg hb]
      push Not at hb
      have key : ∀ k : ℕ, (n : K) * r ≤ k ↔ ⌈(n : K) * r⌉.toNat ≤ k := by
        intro k
        rw [Int.toNat_le, Int.ceil_le, Int.cast_natCast]
      simp only [Except.ok.injEq]
      constructor
      · rintro rfl
        refine ⟨r, rfl, hb.1, hb.2, le_max_left _ _, (key _).2 (le_max_right _ _), ?_⟩
        intro k hk hle
        exact max_le hk ((key k).1 hle)
      · rintro ⟨r', rfl, -, -, h1, hle, hmin⟩
        apply le_antisymm
        · exact max_le h1 ((key m).1 hle)
        · exact hmin _ (le_max_left _ _) ((key _).2 (le_max_right _ _))
  | none =>
    cases hd : a.nDraws with
    | none => rw [hr, hd] at h; simp at h
    | some d =>
      simp only [reduceCtorEq, false_and, exists_false, false_or, true_and, Option.some.injEq]
      by_cases hb : d < 1 ∨ (n : ℤ) < d
      · rw [if_pos hb]
        simp only [reduceCtorEq, false_iff]
        rintro ⟨rfl, h1, h2⟩
        omega
      · rw [if_neg hb]
        simp only [Except.ok.injEq]
        constructor
        · rintro rfl
          omega
        · rintro ⟨rfl, -⟩
          simp

theorem requested_bounds {n m : ℕ} (hn : 1 ≤ n) {a : Args K} (h : Requested n a m) :
    1 ≤ m ∧ m ≤ n := by
  rcases h with ⟨r, -, -, h0, h1, hm, -, hmin⟩ | ⟨-, -, h1, h2⟩
  · exact ⟨hm, hmin n hn (by
      have : (0 : K) ≤ n := Nat.cast_nonneg n
      nlinarith)⟩
  · exact ⟨h1, h2⟩

theorem requested_exclusive {n m : ℕ} {a : Args K} (h : Requested n a m) :
    a.rate.isNone ≠ a.nDraws.isNone := by
  rcases h with ⟨r, h1, h2, -⟩ | ⟨h1, h2, -⟩ <;> simp [h1, h2]

theorem regular_range (n : ℕ) (hn : 1 ≤ n) : Regular (K := K) n n (List.range n) := by
  refine ⟨by simp, fun i hi => List.mem_range.1 hi, List.pairwise_lt_range, ?_⟩
  intro k i j hi hj
  obtain ⟨h1, e1⟩ := List.getElem?_eq_some_iff.1 hi
  obtain ⟨h2, e2⟩ := List.getElem?_eq_some_iff.1 hj
  rw [List.getElem_range] at e1 e2
  subst e1 e2
  have : (n : K) / n = 1 := div_self (by exact_mod_cast (by omega : n ≠ 0))
  rw [this]
  push_cast
  constructor <;> linarith

theorem map_some_range (c : List δ) : c.map some = (List.range c.length).map fun i => c[i]? := by
  apply List.ext_getElem
  · simp
  · intro i h1 h2
    simp

theorem thinnedTo_self (p : Posterior K δ) (hp : Fresh p) (hn : 1 ≤ p.nDraws) :
    ThinnedTo p.nDraws p p := by
  refine ⟨rfl, fun c d j hc hd => ?_⟩
  rw [hc] at hd; cases hd
  refine ⟨List.range p.nDraws, regular_range _ hn, ?_⟩
  rw [← hp.2 c (List.mem_of_getElem? hc)]
  exact map_some_range c

theorem thin_eq (s : State K δ) (p : Posterior K δ) (hs : s.posterior = some p) (hp : Fresh p)
    (hn : 1 ≤ p.nDraws) (a : Args K) (ha : a.systematic = true) (m : ℕ)
    (hm : Requested p.nDraws a m) (u : ℕ → K) : thin s a u = thinTo s p a u m := by
  have hx := requested_exclusive hm
  have hsel := (nSelected_iff p.nDraws hn a hx m).2 hm
  unfold thin
  simp only [hs, if_neg hx, ha, Bool.true_eq_false, if_false, hp.1, Option.isSome_none,
    Bool.false_eq_true, hsel]

/-- **C60.** A valid request succeeds: the posterior then has the requested number of draws in every
chain, taken at regular intervals from this chain, and is marked as thinned, with the original size,
unless all draws are kept. -/
theorem thin_result (s : State K δ) (p : Posterior K δ) (hs : s.posterior = some p) (hp : Fresh p)
    (hn : 1 ≤ p.nDraws) (a : Args K) (ha : a.systematic = true) (m : ℕ)
    (hm : Requested p.nDraws a m) (u : ℕ → K) (hu : ∀ i, 0 ≤ u i ∧ u i < 1) :
    ∃ q, (thin s a u).2 = .ok q ∧ (thin s a u).1.posterior = some q ∧ q.nDraws = m ∧
      ThinnedTo m p q ∧ (m = p.nDraws → q = p) ∧
      (m < p.nDraws → ∃ t, q.attrs = some t ∧ t.chains = p.chains.length ∧ t.draws = p.nDraws ∧
        t.selected = m ∧ (∀ r, a.rate = some r → t.rate = r) ∧
        (a.rate = none → t.rate = (m : K) / p.nDraws)) := by
  obtain ⟨h1, h2⟩ := requested_bounds hn hm
  rw [thin_eq s p hs hp hn a ha m hm u]
  unfold thinTo
  by_cases hmn : m = p.nDraws
  · rw [if_pos hmn]
    refine ⟨p, rfl, hs, hmn.symm, ?_, fun _ => rfl, fun h => absurd h (by omega)⟩
    rw [hmn]
    exact thinnedTo_self p hp hn
  · rw [if_neg hmn]
    obtain ⟨ds, hds, hlen, hall⟩ := pickAll_ok p.nDraws m u h1 h2 hu p.chains hp.2 0
    simp only [hds]
    refine ⟨_, rfl, rfl, rfl, ⟨hlen, fun c d j hc hd => ?_⟩, fun h => absurd h hmn,
      fun _ => ⟨_, rfl, rfl, rfl, rfl, fun r hr => (by simp [recordedRate, hr]),
        fun hr => (by simp [recordedRate, hr])⟩⟩
    exact ⟨_, indices_regular h1 h2 (hu _).1 (hu _).2, hall j c d hc hd⟩

/-- **C60.** Any other request on a fitted model is refused and changes nothing. -/
theorem thin_refused (s : State K δ) (p : Posterior K δ) (hs : s.posterior = some p)
    (hn : 1 ≤ p.nDraws) (a : Args K) (u : ℕ → K)
    (h : a.systematic = false ∨ p.attrs ≠ none ∨ ∀ m, ¬ Requested p.nDraws a m) :
    ∃ e, thin s a u = (s, .error e) := by
  unfold thin
  simp only [hs]
  by_cases hx : a.rate.isNone = a.nDraws.isNone
  · exact ⟨_, by rw [if_pos hx]⟩
  rw [if_neg hx]
  by_cases hm : a.systematic = false
  · exact ⟨_, by rw [if_pos hm]⟩
  rw [if_neg hm]
  by_cases ht : p.attrs.isSome = true
  · exact ⟨_, by rw [if_pos ht]⟩
  rw [if_neg ht]
  have hreq : ∀ m, ¬ Requested p.nDraws a m := by
    rcases h with h | h | h
    · exact absurd h hm
    · exact absurd (Option.isSome_iff_ne_none.2 h) ht
    · exact h
  cases hsel : nSelected p.nDraws a with
  | error e => exact ⟨e, rfl⟩
  | ok m => exact absurd ((nSelected_iff p.nDraws hn a hx m).1 hsel) (hreq m)

/-- **C60.** Thinning with `preserve_original` and restoring gives back the posterior, if some draw was
left out and no other full posterior was stored. -/
theorem restore_after_thin (s : State K δ) (p : Posterior K δ) (hs : s.posterior = some p)
    (hf : s.full = none) (hp : Fresh p) (hn : 1 ≤ p.nDraws) (a : Args K)
    (ha : a.systematic = true) (hpr : a.preserve = true) (m : ℕ) (hm : Requested p.nDraws a m)
    (hlt : m < p.nDraws) (u : ℕ → K) (hu : ∀ i, 0 ≤ u i ∧ u i < 1) :
    restore (thin s a u).1 = (s, .ok p) := by
  obtain ⟨h1, h2⟩ := requested_bounds hn hm
  obtain ⟨ds, hds, -, -⟩ := pickAll_ok p.nDraws m u h1 h2 hu p.chains hp.2 0
  have hfull : (thin s a u).1.full = some p := by
    rw [thin_eq s p hs hp hn a ha m hm u]
    unfold thinTo
    rw [if_neg (by omega : ¬ m = p.nDraws)]
    simp only [hds]
    simp [kept, hpr, hf]
  unfold restore
  rw [hfull]
  obtain ⟨sp, sf⟩ := s
  simp only at hs hf
  rw [hs, hf]

/-- **C60, violated.** If all draws are kept, nothing is preserved: restoring raises an exception. -/
theorem restore_raises_if_all_kept (s : State K δ) (p : Posterior K δ) (hs : s.posterior = some p)
    (hf : s.full = none) (hp : Fresh p) (hn : 1 ≤ p.nDraws) (a : Args K)
    (ha : a.systematic = true) (hm : Requested p.nDraws a p.nDraws) (u : ℕ → K) :
    (thin s a u).2 = .ok p ∧ (restore (thin s a u).1).2 = .error .noFull := by
  have : thin s a u = (s, .ok p) := by
    rw [thin_eq s p hs hp hn a ha _ hm u, thinTo, if_pos rfl]
  rw [this]
  exact ⟨rfl, by unfold restore; rw [hf]⟩

/-- The calls after a fit. -/
def NoFit : Op K δ → Prop
  | .fit _ => False
  | .thin _ u => ∀ i, 0 ≤ u i ∧ u i < 1
  | .restore => True

theorem full_after_thin (s : State K δ) (a : Args K) (u : ℕ → K) :
    (thin s a u).1.full = s.full ∨ (∃ p, s.posterior = some p ∧ p.attrs = none ∧ s.full = none ∧
      (thin s a u).1.full = some p) := by
  unfold thin
  cases hs : s.posterior with
  | none => exact Or.inl rfl
  | some p =>
    simp only
    split_ifs with h1 h2 h3
    · exact Or.inl rfl
    · exact Or.inl rfl
    · exact Or.inl rfl
    · have h3' : p.attrs = none := by simpa using h3
      cases hn : nSelected p.nDraws a with
      | error e => exact Or.inl rfl
      | ok m =>
        simp only
        unfold thinTo
        split_ifs with h4
        · exact Or.inl rfl
        · have key : kept s p a = s.full ∨ (s.full = none ∧ kept s p a = some p) := by
            unfold kept
            by_cases hb : (a.preserve && s.full.isNone) = true
            · right
              rw [if_pos hb]
              simp only [Bool.and_eq_true, Option.isNone_iff_eq_none] at hb
              exact ⟨hb.2, rfl⟩
            · left; rw [if_neg hb]
          cases pickAll p.nDraws m u 0 p.chains with
          | error e =>
            rcases key with k | ⟨k1, k2⟩
            · exact Or.inl k
            · exact Or.inr ⟨p, rfl, h3', k1, k2⟩
          | ok cs =>
            rcases key with k | ⟨k1, k2⟩
            · exact Or.inl k
            · exact Or.inr ⟨p, rfl, h3', k1, k2⟩

/-- What holds at any time after one fit. -/
def Inv (p : Posterior K δ) (s : State K δ) : Prop :=
  (s.full = none ∨ s.full = some p) ∧ ∃ q m, s.posterior = some q ∧ ThinnedTo m p q ∧
    q.nDraws = m ∧ (q.attrs = none → q = p)

theorem inv_step (p : Posterior K δ) (hp : Fresh p) (hn : 1 ≤ p.nDraws) (s : State K δ)
    (hs : Inv p s) (o : Op K δ) (ho : NoFit o) : Inv p (step s o) := by
  obtain ⟨hf, q, m, hq, hth, hqm, hfresh⟩ := hs
  cases o with
  | fit _ => exact ho.elim
  | restore =>
    unfold step restore
    rcases hf with hf | hf
    · rw [hf]; exact ⟨Or.inl hf, q, m, hq, hth, hqm, hfresh⟩
    · rw [hf]
      exact ⟨Or.inl rfl, p, p.nDraws, rfl, thinnedTo_self p hp hn, rfl, fun _ => rfl⟩
  | thin a u =>
    change Inv p (thin s a u).1
    constructor
    · rcases full_after_thin s a u with h | ⟨p', h1, h2, h3, h4⟩
      · rw [h]; exact hf
      · rw [hq] at h1; cases h1
        rw [h4, hfresh h2]
        exact Or.inr rfl
    · by_cases ht : q.attrs = none
      · have hqp := hfresh ht
        subst hqp
        by_cases hr : a.systematic = true ∧ ∃ m, Requested q.nDraws a m
        · obtain ⟨ha, m', hm'⟩ := hr
          obtain ⟨q', -, h2, h3, h4, h5, h6⟩ := thin_result s q hq hp hn a ha m' hm' u ho
          refine ⟨q', m', h2, h4, h3, fun hnone => ?_⟩
          by_contra hne
          have hle := (requested_bounds hn hm').2
          have hlt : m' < q.nDraws := lt_of_le_of_ne hle fun h => hne (h5 h)
          obtain ⟨t, ht', -⟩ := h6 hlt
          rw [ht'] at hnone; cases hnone
        · have hor : a.systematic = false ∨ q.attrs ≠ none ∨ ∀ m, ¬ Requested q.nDraws a m := by
            by_cases hb : a.systematic = true
            · exact Or.inr (Or.inr fun m hm => hr ⟨hb, m, hm⟩)
            · exact Or.inl (by simpa using hb)
          obtain ⟨e, he⟩ := thin_refused s q hq hn a u hor
          rw [he]
          exact ⟨q, m, hq, hth, hqm, hfresh⟩
      · have : (thin s a u).1 = s := by
          unfold thin
          simp only [hq]
          split_ifs with h1 h2 h3
          · rfl
          · rfl
          · rfl
          · exact absurd (by simpa using h3) ht
        rw [this]
        exact ⟨q, m, hq, hth, hqm, hfresh⟩

theorem inv_run (p : Posterior K δ) (hp : Fresh p) (hn : 1 ≤ p.nDraws) (h : List (Op K δ))
    (hh : ∀ o ∈ h, NoFit o) (s : State K δ) (hs : Inv p s) : Inv p (run s h) := by
  induction h generalizing s with
  | nil => exact hs
  | cons o rest ih =>
    exact ih (fun o' ho' => hh o' (List.mem_cons_of_mem _ ho')) _
      (inv_step p hp hn s hs o (hh o List.mem_cons_self))

/-- **C60.** After one fit and any history of thinnings and restorations, successful or not, the
posterior consists of draws of the fit at regular intervals, chain by chain, and a restoration that
succeeds gives back the posterior of the fit. -/
theorem history_of_one_fit (p : Posterior K δ) (hp : Fresh p) (hn : 1 ≤ p.nDraws)
    (h : List (Op K δ)) (hh : ∀ o ∈ h, NoFit o) :
    (∃ q m, (run (fit ⟨none, none⟩ p) h).posterior = some q ∧ q.nDraws = m ∧ ThinnedTo m p q) ∧
      ∀ r, (restore (run (fit ⟨none, none⟩ p) h)).2 = .ok r → r = p := by
  have h0 : Inv p (fit ⟨none, none⟩ p) :=
    ⟨Or.inl rfl, p, p.nDraws, rfl, thinnedTo_self p hp hn, rfl, fun _ => rfl⟩
  obtain ⟨hf, q, m, hq, hth, hqm, -⟩ := inv_run p hp hn h hh _ h0
  refine ⟨⟨q, m, hq, hqm, hth⟩, fun r hr => ?_⟩
  unfold restore at hr
  rcases hf with hf | hf
  · rw [hf] at hr; cases hr
  · rw [hf] at hr; cases hr; rfl

/-- **C60, violated.** The stored posterior outlives the fit: if the model is thinned, fitted again
and then restored, the posterior of the new fit is replaced by that of the old one. -/
theorem restore_undoes_refit (s : State K δ) (p p' : Posterior K δ) (hs : s.posterior = some p)
    (hf : s.full = none) (hp : Fresh p) (hn : 1 ≤ p.nDraws) (a : Args K)
    (ha : a.systematic = true) (hpr : a.preserve = true) (m : ℕ) (hm : Requested p.nDraws a m)
    (hlt : m < p.nDraws) (u : ℕ → K) (hu : ∀ i, 0 ≤ u i ∧ u i < 1) :
    restore (fit (thin s a u).1 p') = (⟨some p, none⟩, .ok p) := by
  have h := restore_after_thin s p hs hf hp hn a ha hpr m hm hlt u hu
  unfold restore at h ⊢
  change (match (thin s a u).1.full with
    | none => _
    | some q => _) = _
  cases hfull : (thin s a u).1.full with
  | none => rw [hfull] at h; simp at h
  | some q =>
    rw [hfull] at h
    simp only [Prod.mk.injEq, Except.ok.injEq] at h
    simp only [h.2]

/-- **C60, violated.** So is thinning again after a second fit: the second full posterior is not
preserved, although `preserve_original` is set, and restoring gives the first. -/
theorem second_fit_not_preserved (s : State K δ) (p p' : Posterior K δ)
    (hfull : s.full = some p) (hs : s.posterior = some p') (a : Args K) (u : ℕ → K) :
    restore (thin s a u).1 = (⟨some p, none⟩, .ok p) := by
  have : (thin s a u).1.full = some p := by
    rcases full_after_thin s a u with h | ⟨q, -, -, h3, -⟩
    · rw [h, hfull]
    · rw [hfull] at h3; cases h3
  unfold restore
  rw [this]

end Field

/-- **C60.** Every draw is kept with the same probability, `m / n`, for a uniform random number. -/
theorem equally_likely {n m : ℕ} (hm : 1 ≤ m) (hmn : m ≤ n) (j : ℕ) (hj : j < n) :
    volume {u : ℝ | u ∈ Set.Ico (0 : ℝ) 1 ∧ j ∈ drawIndices n m u} =
      ENNReal.ofReal ((m : ℝ) / n) := by
  have hm0 : (0 : ℝ) < m := by exact_mod_cast hm
  have hn0 : (0 : ℝ) < n := by exact_mod_cast (by omega : 0 < n)
  have hmn' : (m : ℝ) ≤ n := by exact_mod_cast hmn
  set r : ℝ := (m : ℝ) / n with hr
  have hr0 : 0 < r := div_pos hm0 hn0
  have hr1 : r ≤ 1 := (div_le_one hn0).2 hmn'
  have hs : (n : ℝ) / m = 1 / r := by rw [hr, one_div_div]
  have hnr : (n : ℝ) * r = m := by rw [hr]; field_simp
  -- membership: the random number, shifted by a whole number, is in the interval of the draw
  have hmem : ∀ u ∈ Set.Ico (0 : ℝ) 1, j ∈ drawIndices n m u ↔
      ∃ k : ℕ, k < m ∧ (j : ℝ) * r ≤ u + k ∧ u + k < (j + 1) * r := by
    intro u hu
    rw [List.mem_iff_getElem?]
    have flo : ∀ k : ℕ, ⌊u * ((n : ℝ) / m) + (n : ℝ) / m * k⌋₊ = j ↔
        (j : ℝ) * r ≤ u + k ∧ u + k < (j + 1) * r := by
      intro k
      rw [Nat.floor_eq_iff (value_nonneg hu.1), hs]
      have e : u * (1 / r) + 1 / r * k = (u + k) / r := by ring
      rw [e, le_div_iff₀ hr0, div_lt_iff₀ hr0]
    constructor
    · rintro ⟨k, hk⟩
      have hkm : k < m := by
        obtain ⟨h, -⟩ := List.getElem?_eq_some_iff.1 hk
        rwa [length_drawIndices] at h
      rw [(index_eq hm hmn hkm hu.1 hu.2).1, Option.some.injEq] at hk
      exact ⟨k, hkm, (flo k).1 hk⟩
    · rintro ⟨k, hkm, h⟩
      exact ⟨k, by rw [(index_eq hm hmn hkm hu.1 hu.2).1, (flo k).2 h]⟩
  set a : ℝ := (j : ℝ) * r with ha
  have ha0 : 0 ≤ a := by positivity
  have hb : ((j : ℝ) + 1) * r = a + r := by rw [ha]; ring
  have hbm : a + r ≤ m := by
    rw [← hb, ← hnr]
    have : (j : ℝ) + 1 ≤ n := by exact_mod_cast hj
    exact mul_le_mul_of_nonneg_right this hr0.le
  set k0 : ℕ := ⌊a⌋₊ with hk0
  have hk1 : (k0 : ℝ) ≤ a := Nat.floor_le ha0
  have hk2 : a < k0 + 1 := Nat.lt_floor_add_one a
  have hset : {u : ℝ | u ∈ Set.Ico (0 : ℝ) 1 ∧ j ∈ drawIndices n m u} =
      Set.Ico (a - k0) (min 1 (a + r - k0)) ∪ Set.Ico 0 (a + r - k0 - 1) := by
    ext u
    simp only [Set.mem_setOf_eq, Set.mem_union, Set.mem_Ico, lt_min_iff]
    constructor
    · rintro ⟨hu, hj'⟩
      obtain ⟨k, hkm, h1, h2⟩ := (hmem u hu).1 hj'
      rw [hb] at h2
      have hkge : k0 ≤ k := by
        by_contra hlt
        have : (k : ℝ) + 1 ≤ k0 := by exact_mod_cast (by omega : k + 1 ≤ k0)
        linarith [hu.2]
      have hkle : k ≤ k0 + 1 := by
        by_contra hlt
        have : (k0 : ℝ) + 2 ≤ k := by exact_mod_cast (by omega : k0 + 2 ≤ k)
        linarith [hu.1]
      rcases (by omega : k = k0 ∨ k = k0 + 1) with rfl | rfl
      · left; exact ⟨by linarith, hu.2, by linarith⟩
      · right
        push_cast at h1 h2
        exact ⟨hu.1, by linarith⟩
    · rintro (⟨h1, h2, h3⟩ | ⟨h1, h2⟩)
      · have hu : u ∈ Set.Ico (0 : ℝ) 1 := ⟨by linarith, h2⟩
        refine ⟨hu, (hmem u hu).2 ⟨k0, ?_, by linarith, by rw [hb]; linarith⟩⟩
        have : (k0 : ℝ) < m := by linarith
        exact_mod_cast this
      · have hu : u ∈ Set.Ico (0 : ℝ) 1 := ⟨h1, by linarith⟩
        refine ⟨hu, (hmem u hu).2 ⟨k0 + 1, ?_, by push_cast; linarith, by
          rw [hb]; push_cast; linarith⟩⟩
        have : ((k0 + 1 : ℕ) : ℝ) < m := by push_cast; linarith
        exact_mod_cast this
  rw [hset, measure_union _ measurableSet_Ico, Real.volume_Ico, Real.volume_Ico]
  · by_cases hc : a + r - k0 ≤ 1
    · rw [min_eq_right hc, ENNReal.ofReal_of_nonpos (by linarith : a + r - k0 - 1 - 0 ≤ 0), add_zero]
      congr 1; ring
    · push Not at hc
      rw [min_eq_left hc.le, ← ENNReal.ofReal_add (by linarith) (by linarith)]
      congr 1; ring
  · rw [Set.disjoint_left]
    rintro x ⟨h1, -⟩ ⟨-, h2⟩
    linarith

/-! ## Concrete cases -/

/-- Two chains of five draws. -/
def sampled : Posterior ℚ ℕ := ⟨[[0, 1, 2, 3, 4], [10, 11, 12, 13, 14]], 5, none⟩

/-- Keep two draws. -/
def two : Args ℚ := ⟨none, some 2, true, true⟩

example : Fresh sampled := ⟨rfl, by decide⟩
example : Requested 5 two 2 := Or.inr ⟨rfl, rfl, by decide, by decide⟩
example : Requested 5 (⟨some (3 / 10), none, true, true⟩ : Args ℚ) 2 := by
  refine Or.inl ⟨3 / 10, rfl, rfl, by norm_num, by norm_num, by decide, by norm_num, ?_⟩
  intro k _ h
  by_contra hk
  have : (k : ℚ) ≤ 1 := by exact_mod_cast (by omega : k ≤ 1)
  push_cast at h
  linarith

example : drawIndices 5 2 (1 / 2 : ℚ) = [1, 3] := by decide +kernel
example : (thin ⟨some sampled, none⟩ two fun i => if i = 0 then 1 / 2 else 0).1 =
    ⟨some ⟨[[1, 3], [10, 12]], 2, some ⟨2 / 5, 2, 5, 2⟩⟩, some sampled⟩ := by decide +kernel
example : ∃ e, thin ⟨some sampled, none⟩ ⟨none, some 6, true, true⟩ (fun _ => 0) =
    (⟨some sampled, none⟩, .error e) := ⟨.nDraws, by decide +kernel⟩
example : volume {u : ℝ | u ∈ Set.Ico (0 : ℝ) 1 ∧ 3 ∈ drawIndices 5 2 u} =
    ENNReal.ofReal ((2 : ℕ) / (5 : ℕ)) := equally_likely (by decide) (by decide) 3 (by decide)

end Verif.Thin.Props
